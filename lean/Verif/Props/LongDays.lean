import Verif.Props.SunDay
import Verif.Lemmas.SunHalfDay

/-!
# C97: twelve hours apart; long days in summer, short days in winter
-/

namespace Verif
open Arith Matrix Spec F64

/-- The Sun vector of a result, in astronomical units. -/
theorem sun_vec (p : Profile) (q : SunAngleParameters ℝ) (hd : GoodDate q.date) (c : SunAngleCalculator ℝ)
    (hc : SunAngleCalculator.new p q = .ok c) (δ : ℝ) {r : SunAngleResult ℝ} (hr : c.compute δ = .ok r) :
    (fun i => r.sun_e.toVec i / 149597870700) =
      (celestialToTerrestrial r.tt r.ut1 (0.0349282 * AS2R) (0.4833163 * AS2R)).toMatrix *ᵥ
        (-(earthAt (r.tt.1 + r.tt.2)).heliocentric.p.toVec) := by
  obtain ⟨r', hr', h1, h2, -⟩ := C53_sun_zenith_angle p q hd c hc δ
  obtain rfl := Except.ok.inj (hr.symm.trans hr')
  have he := h2 _ (fromTDB_real _)
  have : (fun i => -(149597870700 * r.earth.toVec i)) = (149597870700 : ℝ) • (-r.earth.toVec) := by
    ext i; simp
  rw [h1, this, mulVec_smul, ← he]
  ext i
  simp

theorem scaled_len (v : Vec3 ℝ) : len (fun i => v.toVec i / 149597870700) = v.norm / 149597870700 := by
  rw [norm_real]
  show Real.sqrt ((v.x / 149597870700) ^ 2 + (v.y / 149597870700) ^ 2 + (v.z / 149597870700) ^ 2) = _
  rw [show (v.x / 149597870700) ^ 2 + (v.y / 149597870700) ^ 2 + (v.z / 149597870700) ^ 2 =
    (v.x ^ 2 + v.y ^ 2 + v.z ^ 2) / 149597870700 ^ 2 by ring, Real.sqrt_div' _ (by positivity), Real.sqrt_sq (by norm_num)]

/-- **C97.** Twelve hours apart: for one calculator in exact arithmetic and two offsets twelve hours apart, both within 36524
days of 2000-01-01 12:00 UTC, the heights of the Sun above the horizon (cosine of the zenith angle times distance) add up to
the sine of the latitude times the sum of its heights above the equator, up to `0.01785` astronomical units times the cosine
of the latitude. -/
theorem C97_twelve_hours_apart (p : Profile) (q : SunAngleParameters ℝ) (hd : GoodDate q.date) (c : SunAngleCalculator ℝ)
    (hc : SunAngleCalculator.new p q = .ok c) (δ : ℝ) (N : ℤ) (hN : DaysFrom mjdEpoch q.date.civil N)
    (hb : |N - 51544.5 + (3600 * q.time.hour + 60 * q.time.minute + q.time.second + δ) / 86400| ≤ 36524)
    (hb' : |N - 51544.5 + (3600 * q.time.hour + 60 * q.time.minute + q.time.second + (δ + 43200)) / 86400| ≤ 36524)
    (hlat : |q.position.lat| ≤ 90) :
    ∃ r r', c.compute δ = .ok r ∧ c.compute (δ + 43200) = .ok r' ∧
      |Real.cos r.sza * r.sun_e.norm + Real.cos r'.sza * r'.sun_e.norm -
        Real.sin (q.position.lat * (Real.pi / 180)) * (r.sun_e.z + r'.sun_e.z)| ≤
        0.01785 * 149597870700 * Real.cos (q.position.lat * (Real.pi / 180)) := by
  have hbm : |N - 51544.5 + (3600 * q.time.hour + 60 * q.time.minute + q.time.second + (δ + 21600)) / 86400| ≤ 36524 := by
    rw [abs_le] at hb hb' ⊢
    constructor <;> linarith [hb.1, hb.2, hb'.1, hb'.2]
  obtain ⟨r, hr, htt, hut, hd0, hd1, -, b0, hz⟩ := sun_at p q hd c hc N hN δ hb
  obtain ⟨r', hr', htt', hut', hd0', hd1', -, b0', hz'⟩ := sun_at p q hd c hc N hN _ hb'
  obtain ⟨rm, -, httm, hutm, hd0m, hd1m, hdat, b0m, -⟩ := sun_at p q hd c hc N hN _ hbm
  have same : ∀ {r r' : SunAngleResult ℝ}, (q.date.year < 1960 → r.dat = 0) →
      (1960 ≤ q.date.year → deltaAt p q.date ((3600 * q.time.hour + 60 * q.time.minute + q.time.second) / 86400) = .ok (.ok (some r.dat))) →
      (q.date.year < 1960 → r'.dat = 0) →
      (1960 ≤ q.date.year → deltaAt p q.date ((3600 * q.time.hour + 60 * q.time.minute + q.time.second) / 86400) = .ok (.ok (some r'.dat))) →
      r.dat = r'.dat := by
    intro r r' h0 h1 h0' h1'
    by_cases hy : q.date.year < 1960
    · rw [h0 hy, h0' hy]
    · have k := (h1 (by omega)).symm.trans (h1' (by omega))
      simpa using k
  have q1 := same hd0 hd1 hd0m hd1m
  have q2 := same hd0' hd1' hd0m hd1m
  refine ⟨r, r', hr, hr', ?_⟩
  have sv := sun_vec p q hd c hc _ hr
  have sv' := sun_vec p q hd c hc _ hr'
  have hv := half_day_vec (u := r.ut1.1) (v := r.ut1.2) (u' := r'.ut1.1) (v' := r'.ut1.2) (um := rm.ut1.1) (vm := rm.ut1.2)
    b0 b0' b0m (by rw [htt, httm, q1]; ring) (by rw [htt', httm, q2]; ring)
    (by rw [hut, hutm]; ring) (by rw [hut', hutm]; ring) sv sv'
  rw [← sv] at hz
  rw [← sv'] at hz'
  have c1 := cos_ang (upward q.position.lon q.position.lat) (fun i => r.sun_e.toVec i / 149597870700)
  have c2 := cos_ang (upward q.position.lon q.position.lat) (fun i => r'.sun_e.toVec i / 149597870700)
  rw [← hz, upward_len, one_mul, scaled_len] at c1
  rw [← hz', upward_len, one_mul, scaled_len] at c2
  clear hz hz' sv sv' htt htt' httm hut hut' hutm hd0 hd0' hd0m hd1 hd1' hd1m same q1 q2 hdat hb hb' hbm b0 b0' b0m
  have κ0 : 0 ≤ Real.cos (q.position.lat * (Real.pi / 180)) := by
    have hpi := Real.pi_pos
    have hl := abs_le.mp hlat
    have a1 := mul_le_mul_of_nonneg_right hl.1 hpi.le
    have a2 := mul_le_mul_of_nonneg_right hl.2 hpi.le
    clear * - a1 a2
    apply Real.cos_nonneg_of_neg_pi_div_two_le_of_le <;> linarith
  have hdot := dot_le ![Real.cos (q.position.lon * (Real.pi / 180)), Real.sin (q.position.lon * (Real.pi / 180)), 0]
    (KE *ᵥ ((fun i => r.sun_e.toVec i / 149597870700) + fun i => r'.sun_e.toVec i / 149597870700))
  have hu : len ![Real.cos (q.position.lon * (Real.pi / 180)), Real.sin (q.position.lon * (Real.pi / 180)), 0] = 1 := by
    unfold len
    rw [Real.sqrt_eq_one]
    simp
  rw [hu, one_mul] at hdot
  have hdot := hdot.trans hv
  have k0 : ∀ w : Fin 3 → ℝ, (KE *ᵥ w) 0 = w 0 := fun w => by simp [KE, Matrix.mulVec, dotProduct, Fin.sum_univ_three]
  have k1 : ∀ w : Fin 3 → ℝ, (KE *ᵥ w) 1 = w 1 := fun w => by simp [KE, Matrix.mulVec, dotProduct, Fin.sum_univ_three]
  have t0 : ∀ v : Vec3 ℝ, v.toVec 0 = v.x := fun v => rfl
  have t1 : ∀ v : Vec3 ℝ, v.toVec 1 = v.y := fun v => rfl
  have t2 : ∀ v : Vec3 ℝ, v.toVec 2 = v.z := fun v => rfl
  simp only [k0, k1, Pi.add_apply, Matrix.cons_val_zero, Matrix.cons_val_one, Matrix.cons_val, zero_mul, add_zero, t0, t1] at hdot
  have v0 : upward q.position.lon q.position.lat 0 = Real.cos (q.position.lat * (Real.pi / 180)) * Real.cos (q.position.lon * (Real.pi / 180)) := rfl
  have v1 : upward q.position.lon q.position.lat 1 = Real.cos (q.position.lat * (Real.pi / 180)) * Real.sin (q.position.lon * (Real.pi / 180)) := rfl
  have v2 : upward q.position.lon q.position.lat 2 = Real.sin (q.position.lat * (Real.pi / 180)) := rfl
  rw [v0, v1, v2, t0, t1, t2] at c1 c2
  have e : Real.cos r.sza * r.sun_e.norm + Real.cos r'.sza * r'.sun_e.norm -
      Real.sin (q.position.lat * (Real.pi / 180)) * (r.sun_e.z + r'.sun_e.z) =
      149597870700 * (Real.cos (q.position.lat * (Real.pi / 180)) * (Real.cos (q.position.lon * (Real.pi / 180)) *
        (r.sun_e.x / 149597870700 + r'.sun_e.x / 149597870700) + Real.sin (q.position.lon * (Real.pi / 180)) *
        (r.sun_e.y / 149597870700 + r'.sun_e.y / 149597870700))) := by
    field_simp at c1 c2 ⊢
    linear_combination c1 + c2
  rw [e, abs_mul, abs_mul, abs_of_nonneg κ0, abs_of_pos (by norm_num : (0 : ℝ) < 149597870700)]
  have := mul_le_mul_of_nonneg_left hdot κ0
  linarith

example : GoodDate (SunAngleParameters.default (α := ℝ)).date ∧
    (∃ c, SunAngleCalculator.new .checked (SunAngleParameters.default (α := ℝ)) = .ok c) ∧
    DaysFrom mjdEpoch (SunAngleParameters.default (α := ℝ)).date.civil 54195 ∧
    |(54195 : ℝ) - 51544.5 + (3600 * 12 + 43200) / 86400| ≤ 36524 ∧ |(SunAngleParameters.default (α := ℝ)).position.lat| ≤ 90 := by
  have hd : GoodDate (SunAngleParameters.default (α := ℝ)).date := ⟨by decide, by decide, by decide⟩
  refine ⟨hd, (C52_new_exact _ _ hd).1.mpr ?_, daysFrom_epoch (by decide), by norm_num [abs_le], ?_⟩
  · unfold SunAngleParameters.default HMS.toFractionOfDay
    norm_num
  · simp [SunAngleParameters.default]

/-- Two opposite instants of a day in the right half of the year. -/
theorem season_sum (p : Profile) (q : SunAngleParameters ℝ) (hd : GoodDate q.date) (c : SunAngleCalculator ℝ)
    (hc : SunAngleCalculator.new p q = .ok c) (y1 : 1901 ≤ q.date.year) (y2 : q.date.year ≤ 2098)
    (l1 : 30 ≤ |q.position.lat|) (l2 : |q.position.lat| ≤ 60) (δ : ℝ)
    (f0 : -0.5 ≤ (3600 * q.time.hour + 60 * q.time.minute + q.time.second + δ) / 86400)
    (f1 : (3600 * q.time.hour + 60 * q.time.minute + q.time.second + δ) / 86400 ≤ 1)
    (hs : NorthSummer q.date.month q.date.day ∨ NorthWinter q.date.month q.date.day) :
    ∃ r r', c.compute δ = .ok r ∧ c.compute (δ + 43200) = .ok r' ∧ ∃ d d' : ℝ, 0.98 ≤ d ∧ d ≤ 1.02 ∧ 0.98 ≤ d' ∧ d' ≤ 1.02 ∧
      ((0 < q.position.lat ∧ NorthSummer q.date.month q.date.day ∨ q.position.lat < 0 ∧ NorthWinter q.date.month q.date.day) →
        0.0004 ≤ Real.cos r.sza * d + Real.cos r'.sza * d') ∧
      ((0 < q.position.lat ∧ NorthWinter q.date.month q.date.day ∨ q.position.lat < 0 ∧ NorthSummer q.date.month q.date.day) →
        Real.cos r.sza * d + Real.cos r'.sza * d' ≤ -0.0004) := by
  set S : ℝ := 3600 * q.time.hour + 60 * q.time.minute + q.time.second with hS
  have g0 : -0.5 ≤ (S + (δ + 43200)) / 86400 := by norm_num at *; linarith
  have g1 : (S + (δ + 43200)) / 86400 ≤ 1.5 := by norm_num at *; linarith
  have f1' : (S + δ) / 86400 ≤ 1.5 := f1.trans (by norm_num)
  obtain ⟨hb, hb', m⟩ : |(mjdN q.date.year q.date.month q.date.day : ℝ) - 51544.5 + (S + δ) / 86400| ≤ 36524 ∧
      |(mjdN q.date.year q.date.month q.date.day : ℝ) - 51544.5 + (S + (δ + 43200)) / 86400| ≤ 36524 ∧
      ((NorthSummer q.date.month q.date.day → 0.0175 ≤ meanSun ((mjdN q.date.year q.date.month q.date.day : ℝ) - 51544.5 + (S + δ) / 86400) 2 ∧
        0.0175 ≤ meanSun ((mjdN q.date.year q.date.month q.date.day : ℝ) - 51544.5 + (S + (δ + 43200)) / 86400) 2) ∧
      (NorthWinter q.date.month q.date.day → meanSun ((mjdN q.date.year q.date.month q.date.day : ℝ) - 51544.5 + (S + δ) / 86400) 2 ≤ -0.0175 ∧
        meanSun ((mjdN q.date.year q.date.month q.date.day : ℝ) - 51544.5 + (S + (δ + 43200)) / 86400) 2 ≤ -0.0175)) := by
    refine ⟨?_, ?_, fun h => ⟨?_, ?_⟩, fun h => ⟨?_, ?_⟩⟩
    · rcases hs with h | h
      · exact (summer_dates y1 y2 hd.civil h f0 f1').1
      · exact (winter_dates y1 y2 hd.civil h f0 f1').1
    · rcases hs with h | h
      · exact (summer_dates y1 y2 hd.civil h g0 g1).1
      · exact (winter_dates y1 y2 hd.civil h g0 g1).1
    · exact (summer_dates y1 y2 hd.civil h f0 f1').2
    · exact (summer_dates y1 y2 hd.civil h g0 g1).2
    · exact (winter_dates y1 y2 hd.civil h f0 f1').2
    · exact (winter_dates y1 y2 hd.civil h g0 g1).2
  have hN : DaysFrom mjdEpoch q.date.civil (mjdN q.date.year q.date.month q.date.day) := daysFrom_epoch hd.civil
  obtain ⟨r, r', hr, hr', sum⟩ := C97_twelve_hours_apart p q hd c hc δ _ hN hb hb' (l2.trans (by norm_num))
  have one : ∀ {δ : ℝ} {r : SunAngleResult ℝ}, c.compute δ = .ok r →
      |(mjdN q.date.year q.date.month q.date.day : ℝ) - 51544.5 + (S + δ) / 86400| ≤ 36524 →
      0.98 ≤ r.sun_e.norm / 149597870700 ∧ r.sun_e.norm / 149597870700 ≤ 1.02 ∧
      |r.sun_e.z / 149597870700 - meanSun ((mjdN q.date.year q.date.month q.date.day : ℝ) - 51544.5 + (S + δ) / 86400) 2| ≤ 0.00155 := by
    intro δ r hr hb
    obtain ⟨r₁, hr₁, htt, hut, -, -, hdat, b0, -⟩ := sun_at p q hd c hc _ hN δ hb
    obtain rfl := Except.ok.inj (hr.symm.trans hr₁)
    have sv := sun_vec p q hd c hc _ hr
    have near := sun_near (n := (mjdN q.date.year q.date.month q.date.day : ℝ) - 51544.5 + (S + δ) / 86400) b0 (u := r.ut1.1) (v := r.ut1.2) (by
      rw [htt, ← hS, show 2400000.5 + (mjdN q.date.year q.date.month q.date.day : ℝ) + (S + δ) / 86400 + (r.dat + 32.184) / 86400 -
        2451545 - ((mjdN q.date.year q.date.month q.date.day : ℝ) - 51544.5 + (S + δ) / 86400) = (r.dat + 32.184) / 86400 by norm_num; ring]
      rw [abs_le] at hdat ⊢
      constructor <;> norm_num <;> linarith [hdat.1, hdat.2]) (by
      rw [hut, ← hS, show 2400000.5 + (mjdN q.date.year q.date.month q.date.day : ℝ) + (S + δ) / 86400 - 0.072073685 / 86400 -
        2451545 - ((mjdN q.date.year q.date.month q.date.day : ℝ) - 51544.5 + (S + δ) / 86400) = -0.072073685 / 86400 by norm_num; ring]
      norm_num [abs_of_neg])
    change len ((celestialToTerrestrial r.tt r.ut1 (0.0349282 * AS2R) (0.4833163 * AS2R)).toMatrix *ᵥ _ - _) ≤ _ at near
    rw [← sv] at near
    have lens : len ((celestialToTerrestrial r.tt r.ut1 (0.0349282 * AS2R) (0.4833163 * AS2R)).toMatrix *ᵥ (-(earthAt (r.tt.1 + r.tt.2)).heliocentric.p.toVec)) =
        len (-(earthAt (r.tt.1 + r.tt.2)).heliocentric.p.toVec) :=
      len_mulVec (mul_eq_one_comm.mp ((isRotation_iff _).mp (C38_celestial_to_terrestrial r.tt r.ut1 _ _)).1) _
    obtain ⟨e1, e2⟩ := earth_len b0
    rw [← lens, ← sv, scaled_len] at e1 e2
    refine ⟨le_trans (by norm_num) e1, e2.trans (by norm_num), ?_⟩
    have := dot_le ![0, 0, 1] ((fun i => r.sun_e.toVec i / 149597870700) - meanSun ((mjdN q.date.year q.date.month q.date.day : ℝ) - 51544.5 + (S + δ) / 86400))
    have hu : len ![0, 0, (1 : ℝ)] = 1 := by unfold len; simp
    rw [hu, one_mul] at this
    have := this.trans near
    simp only [Pi.sub_apply, Matrix.cons_val_zero, Matrix.cons_val_one, Matrix.cons_val, zero_mul, zero_add, one_mul] at this
    exact this
  obtain ⟨d1, d2, z1⟩ := one hr hb
  obtain ⟨d1', d2', z2⟩ := one hr' hb'
  refine ⟨r, r', hr, hr', r.sun_e.norm / 149597870700, r'.sun_e.norm / 149597870700, d1, d2, d1', d2', ?_⟩
  have sum' : |Real.cos r.sza * (r.sun_e.norm / 149597870700) + Real.cos r'.sza * (r'.sun_e.norm / 149597870700) -
      Real.sin (q.position.lat * (Real.pi / 180)) * (r.sun_e.z / 149597870700 + r'.sun_e.z / 149597870700)| ≤
      0.01785 * Real.cos (q.position.lat * (Real.pi / 180)) := by
    have e : Real.cos r.sza * (r.sun_e.norm / 149597870700) + Real.cos r'.sza * (r'.sun_e.norm / 149597870700) -
      Real.sin (q.position.lat * (Real.pi / 180)) * (r.sun_e.z / 149597870700 + r'.sun_e.z / 149597870700) =
      (Real.cos r.sza * r.sun_e.norm + Real.cos r'.sza * r'.sun_e.norm -
        Real.sin (q.position.lat * (Real.pi / 180)) * (r.sun_e.z + r'.sun_e.z)) / 149597870700 := by ring
    rw [e, abs_div, abs_of_pos (by norm_num : (0 : ℝ) < 149597870700), div_le_iff₀ (by norm_num)]
    linarith
  have hκ : Real.cos (q.position.lat * (Real.pi / 180)) ≤ 0.8661 := by
    have hpi := Real.pi_pos
    have h3 : Real.cos (Real.pi / 6) ≤ 0.8661 := by
      rw [Real.cos_pi_div_six]
      have : Real.sqrt 3 ≤ 1.7322 := by rw [Real.sqrt_le_left (by norm_num)]; norm_num
      norm_num at this ⊢
      linarith
    refine le_trans ?_ h3
    rw [← Real.cos_abs (q.position.lat * _), abs_mul, abs_of_pos (by positivity : 0 < Real.pi / 180)]
    have := mul_le_mul_of_nonneg_right l1 (by positivity : 0 ≤ Real.pi / 180)
    have := mul_le_mul_of_nonneg_right l2 (by positivity : 0 ≤ Real.pi / 180)
    refine Real.cos_le_cos_of_nonneg_of_le_pi (by positivity) (by linarith) (by linarith)
  have half : ∀ x : ℝ, 30 ≤ x → x ≤ 60 → 1 / 2 ≤ Real.sin (x * (Real.pi / 180)) := by
    intro x h1 h2
    have hpi := Real.pi_pos
    rw [← Real.sin_pi_div_six]
    have := mul_le_mul_of_nonneg_right h1 (by positivity : 0 ≤ Real.pi / 180)
    have := mul_le_mul_of_nonneg_right h2 (by positivity : 0 ≤ Real.pi / 180)
    exact Real.sin_le_sin_of_le_of_le_pi_div_two (by linarith) (by linarith) (by linarith)
  have north : 0 < q.position.lat → 1 / 2 ≤ Real.sin (q.position.lat * (Real.pi / 180)) := fun h => by
    rw [abs_of_pos h] at l1 l2; exact half _ l1 l2
  have south : q.position.lat < 0 → Real.sin (q.position.lat * (Real.pi / 180)) ≤ -(1 / 2) := fun h => by
    rw [abs_of_neg h] at l1 l2
    have := half _ l1 l2
    rw [neg_mul, Real.sin_neg] at this
    linarith
  clear one sum hN
  generalize Real.sin (q.position.lat * (Real.pi / 180)) = σ at *
  generalize Real.cos (q.position.lat * (Real.pi / 180)) = κ at *
  generalize meanSun ((mjdN q.date.year q.date.month q.date.day : ℝ) - 51544.5 + (S + δ) / 86400) 2 = w at *
  generalize meanSun ((mjdN q.date.year q.date.month q.date.day : ℝ) - 51544.5 + (S + (δ + 43200)) / 86400) 2 = w' at *
  generalize Real.cos r.sza * (r.sun_e.norm / 149597870700) + Real.cos r'.sza * (r'.sun_e.norm / 149597870700) = X at *
  generalize r.sun_e.z / 149597870700 = u at *
  generalize r'.sun_e.z / 149597870700 = u' at *
  rw [abs_le] at sum' z1 z2
  norm_num at sum' z1 z2 hκ m ⊢
  constructor
  · rintro (⟨h1, h2⟩ | ⟨h1, h2⟩)
    · have := m.1 h2
      have := mul_le_mul (north h1) (show 0.0319 ≤ u + u' by norm_num; linarith) (by norm_num) (by linarith [north h1])
      norm_num at this
      linarith
    · have := m.2 h2
      have := mul_le_mul (le_neg.mp (south h1)) (show 0.0319 ≤ -(u + u') by norm_num; linarith) (by norm_num) (by linarith [south h1])
      norm_num at this
      linarith
  · rintro (⟨h1, h2⟩ | ⟨h1, h2⟩)
    · have := m.2 h2
      have := mul_le_mul (north h1) (show 0.0319 ≤ -(u + u') by norm_num; linarith) (by norm_num) (by linarith [north h1])
      norm_num at this
      linarith
    · have := m.1 h2
      have := mul_le_mul (le_neg.mp (south h1)) (show 0.0319 ≤ u + u' by norm_num; linarith) (by norm_num) (by linarith [south h1])
      norm_num at this
      linarith

/-- The day number of a date of the two centuries. -/
theorem mjdN_range {y m d : ℤ} (h1 : 1901 ≤ y) (h2 : y ≤ 2098) (hd : IsDate (y, m, d)) : 15385 ≤ mjdN y m d ∧ mjdN y m d ≤ 87705 := by
  obtain ⟨m1, m2, d1, d2⟩ := hd
  simp only at m1 m2 d1 d2
  have hml : monthLen y m ≤ 31 := by unfold monthLen; split_ifs <;> omega
  rcases mjdN_cases y m d with ⟨h, e⟩ | ⟨h, e⟩ <;> rw [e] <;> omega

/-- **C97.** Long days in summer, short days in winter: in exact arithmetic, between 30 and 60 degrees of latitude, for every
date from 1901 to 2098 and its day of local mean solar time, there are offsets `a` and `b` as in C91, the sunrise and the
sunset of that day; in the summer half of the year (26 March to 17 September in the north, from 28 September to 15 March in
the south) sunset is more than twelve hours after sunrise, and in the winter half less than twelve hours. -/
theorem C97_long_and_short_days (p : Profile) (q : SunAngleParameters ℝ) (hd : GoodDate q.date) (c : SunAngleCalculator ℝ)
    (hc : SunAngleCalculator.new p q = .ok c) (y1 : 1901 ≤ q.date.year) (y2 : q.date.year ≤ 2098)
    (l1 : 30 ≤ |q.position.lat|) (l2 : |q.position.lat| ≤ 60) (hlon : |q.position.lon| ≤ 180)
    (T : ℝ → ℝ) (hT : ∀ δ, T δ = (3600 * q.time.hour + 60 * q.time.minute + q.time.second + δ) / 3600 + q.position.lon / 15) :
    ∃ a b : ℝ, 2 ≤ T a ∧ T a ≤ 10 ∧ 14 ≤ T b ∧ T b ≤ 22 ∧
      (∀ ε δ : ℝ, 1e-11 ≤ ε → ε ≤ 1 → -2 ≤ T δ → T δ ≤ 26 →
        ∃ r, c.compute δ = .ok r ∧
          (a + ε ≤ δ → δ ≤ b - ε → 1e-5 * ε ≤ Real.cos r.sza ∧ r.sza < Real.pi / 2) ∧
          (δ ≤ a - ε ∨ b + ε ≤ δ → Real.cos r.sza ≤ -(1e-5 * ε) ∧ Real.pi / 2 < r.sza)) ∧
      ((0 < q.position.lat ∧ NorthSummer q.date.month q.date.day ∨ q.position.lat < 0 ∧ NorthWinter q.date.month q.date.day) →
        12 * 3600 < b - a) ∧
      ((0 < q.position.lat ∧ NorthWinter q.date.month q.date.day ∨ q.position.lat < 0 ∧ NorthSummer q.date.month q.date.day) →
        b - a < 12 * 3600) := by
  have hN : DaysFrom mjdEpoch q.date.civil (mjdN q.date.year q.date.month q.date.day) := daysFrom_epoch hd.civil
  obtain ⟨n1, n2⟩ := mjdN_range y1 y2 hd.civil
  have n1' : (15385 : ℝ) ≤ mjdN q.date.year q.date.month q.date.day := by exact_mod_cast n1
  have n2' : (mjdN q.date.year q.date.month q.date.day : ℝ) ≤ 87705 := by exact_mod_cast n2
  have lo := abs_le.mp hlon
  obtain ⟨a, b, a1, a2, b1, b2, key⟩ := C91_one_sunrise_one_sunset p q hd c hc _ hN l2 T hT 0 (by
    rw [abs_le]; push_cast; constructor <;> linarith [lo.1, lo.2])
  norm_num at a1 a2 b1 b2
  have key' : ∀ ε δ : ℝ, 1e-11 ≤ ε → ε ≤ 1 → -2 ≤ T δ → T δ ≤ 26 →
        ∃ r, c.compute δ = .ok r ∧
          (a + ε ≤ δ → δ ≤ b - ε → 1e-5 * ε ≤ Real.cos r.sza ∧ r.sza < Real.pi / 2) ∧
          (δ ≤ a - ε ∨ b + ε ≤ δ → Real.cos r.sza ≤ -(1e-5 * ε) ∧ Real.pi / 2 < r.sza) := fun ε δ h1 h2 h3 h4 =>
    key ε δ h1 h2 (by push_cast; linarith) (by push_cast; linarith)
  refine ⟨a, b, a1, a2, b1, b2, key', ?_⟩
  clear key
  have Ta := hT a
  have sh : ∀ x : ℝ, T (a + x) = T a + x / 3600 := fun x => by rw [hT, hT]; ring
  have frac : ∀ x : ℝ, |x| ≤ 1 → -0.5 ≤ (3600 * q.time.hour + 60 * q.time.minute + q.time.second + (a + x)) / 86400 ∧
      (3600 * q.time.hour + 60 * q.time.minute + q.time.second + (a + x)) / 86400 ≤ 1 := by
    intro x hx
    rw [abs_le] at hx
    rw [Ta] at a1 a2
    norm_num
    constructor <;> linarith [lo.1, lo.2, hx.1, hx.2]
  have century : ∀ x : ℝ, |x| ≤ 1 → |(mjdN q.date.year q.date.month q.date.day : ℝ) - 51544.5 +
      (3600 * q.time.hour + 60 * q.time.minute + q.time.second + (a + x)) / 86400| ≤ 36524 := by
    intro x hx
    obtain ⟨f0, f1⟩ := frac x hx
    rw [abs_le]
    norm_num at *
    constructor <;> linarith
  -- the two instants around sunrise
  obtain ⟨r1, e1, -, w1⟩ := key' 1 (a + -1) (by norm_num) le_rfl (by rw [sh]; linarith) (by rw [sh]; linarith)
  obtain ⟨r2, e2, w2, -⟩ := key' 1 (a + 1) (by norm_num) le_rfl (by rw [sh]; linarith) (by rw [sh]; linarith)
  have rate : |Real.cos r2.sza - Real.cos r1.sza| ≤ 0.000147 := by
    obtain ⟨ra, rb, k1, k2, k3⟩ := C90_zenith_angle_rate p q hd c hc (a + 1) (a + -1) _ hN (century 1 (by norm_num)) (century (-1) (by norm_num))
    obtain rfl := Except.ok.inj (e2.symm.trans k1)
    obtain rfl := Except.ok.inj (e1.symm.trans k2)
    have lip : |Real.cos r2.sza - Real.cos r1.sza| ≤ |r2.sza - r1.sza| := by
      have := Real.lipschitzWith_cos.dist_le_mul r2.sza r1.sza
      simpa [Real.dist_eq] using this
    refine lip.trans (k3.trans ?_)
    rw [show a + 1 - (a + -1) = 2 by ring, abs_of_pos (by norm_num : (0 : ℝ) < 2)]
    norm_num
  rw [abs_le] at rate
  have ab : a + 4 * 3600 ≤ b := by
    rw [hT] at a2 b1; linarith
  constructor
  · intro h
    have hs : NorthSummer q.date.month q.date.day ∨ NorthWinter q.date.month q.date.day := h.elim (fun k => .inl k.2) fun k => .inr k.2
    obtain ⟨r, r', hr, hr', d, d', d1, d2, d1', d2', pos, -⟩ := season_sum p q hd c hc y1 y2 l1 l2 (a + 1) (frac 1 (by norm_num)).1 (frac 1 (by norm_num)).2 hs
    obtain rfl := Except.ok.inj (e2.symm.trans hr)
    have pos := pos h
    have w1 := (w1 (.inl (by linarith))).1
    by_contra hlt
    push Not at hlt
    have e : a + 1 + 43200 = a + 43201 := by ring
    rw [e] at hr'
    obtain ⟨r3, e3, -, w3⟩ := key' 1 (a + 43201) (by norm_num) le_rfl (by rw [sh]; linarith) (by rw [sh]; linarith)
    obtain rfl := Except.ok.inj (hr'.symm.trans e3)
    have w3 := (w3 (.inr (by linarith))).1
    have m1 : Real.cos r'.sza * d' ≤ 0 := mul_nonpos_of_nonpos_of_nonneg (by norm_num at w3 ⊢; linarith) (by norm_num at d1' ⊢; linarith)
    have m2 : Real.cos r2.sza * d ≤ 0.000147 * 1.02 := by
      refine (mul_le_mul_of_nonneg_right (show Real.cos r2.sza ≤ 0.000147 by norm_num at *; linarith [rate.2]) (by norm_num at d1 ⊢; linarith)).trans ?_
      exact mul_le_mul_of_nonneg_left d2 (by norm_num)
    norm_num at *
    linarith
  · intro h
    have hs : NorthSummer q.date.month q.date.day ∨ NorthWinter q.date.month q.date.day := h.elim (fun k => .inr k.2) fun k => .inl k.2
    obtain ⟨r, r', hr, hr', d, d', d1, d2, d1', d2', -, neg⟩ := season_sum p q hd c hc y1 y2 l1 l2 (a + -1) (frac (-1) (by norm_num)).1 (frac (-1) (by norm_num)).2 hs
    obtain rfl := Except.ok.inj (e1.symm.trans hr)
    have neg := neg h
    have w2 := (w2 le_rfl (by linarith)).1
    by_contra hlt
    push Not at hlt
    have e : a + -1 + 43200 = a + 43199 := by ring
    rw [e] at hr'
    obtain ⟨r3, e3, w3, -⟩ := key' 1 (a + 43199) (by norm_num) le_rfl (by rw [sh]; linarith) (by rw [sh]; linarith)
    obtain rfl := Except.ok.inj (hr'.symm.trans e3)
    have w3 := (w3 (by linarith) (by linarith)).1
    have m1 : 0 ≤ Real.cos r'.sza * d' := mul_nonneg (by norm_num at w3 ⊢; linarith) (by norm_num at d1' ⊢; linarith)
    have m2 : -(0.000147 * 1.02) ≤ Real.cos r1.sza * d := by
      have : -Real.cos r1.sza * d ≤ 0.000147 * 1.02 := by
        refine (mul_le_mul_of_nonneg_right (show -Real.cos r1.sza ≤ 0.000147 by norm_num at *; linarith [rate.2]) (by norm_num at d1 ⊢; linarith)).trans ?_
        exact mul_le_mul_of_nonneg_left d2 (by norm_num)
      linarith
    norm_num at *
    linarith

/-- Two places and dates: 45 degrees north on 21 June 2007 and 45 degrees south on 21 December. -/
example : ∃ q q' : SunAngleParameters ℝ, GoodDate q.date ∧ GoodDate q'.date ∧ 1901 ≤ q.date.year ∧ q'.date.year ≤ 2098 ∧
    30 ≤ |q.position.lat| ∧ |q'.position.lat| ≤ 60 ∧ |q.position.lon| ≤ 180 ∧
    (0 < q.position.lat ∧ NorthSummer q.date.month q.date.day) ∧ q'.position.lat < 0 ∧ NorthWinter q'.date.month q'.date.day := by
  refine ⟨{ SunAngleParameters.default with date := ⟨2007, 6, 21⟩, position := ⟨-120, 45, 0⟩ },
    { SunAngleParameters.default with date := ⟨2007, 12, 21⟩, position := ⟨-120, -45, 0⟩ }, ⟨by decide, by decide, by decide⟩,
    ⟨by decide, by decide, by decide⟩, by decide, by decide, ?_, ?_, ?_, ⟨?_, ?_⟩, ?_, ?_⟩
  all_goals first | (norm_num; done) | (unfold NorthSummer; decide) | (unfold NorthWinter; decide)

/-- **C97.** The same in binary64, for any mathematical library accurate to `2^-50`: the instants `a` and `e`, the same for all
offsets of the day, that separate day from night up to 0.13 milliseconds, are more than twelve hours apart in the summer half
of the year and less than twelve hours in the winter half. -/
theorem C97_long_and_short_days_f64 [Libm F64] (hL : LibmAcc) (p : Profile) (q : SunAngleParameters F64) (δ₀ : F64)
    (s l b h d₀ : ℚ) (N : ℤ) (H₀ : SunInput q δ₀ s l b h d₀ N) (y1 : 1901 ≤ q.date.year) (y2 : q.date.year ≤ 2098)
    (l1 : 30 ≤ |b|) (l2 : |b| ≤ 60) (hlon : |l| ≤ 180) (T : ℝ → ℝ)
    (hT : ∀ d, T d = (3600 * q.time.hour + 60 * q.time.minute + s + d) / 3600 + l / 15) :
    ∃ (c : SunAngleCalculator F64) (a e : ℝ), SunAngleCalculator.new p q = .ok c ∧
      2 ≤ T a ∧ T a ≤ 10 ∧ 14 ≤ T e ∧ T e ≤ 22 ∧
      (∀ (δ : F64) (d : ℚ), SunInput q δ s l b h d N → -2 ≤ T d → T d ≤ 26 →
        ∃ (r : SunAngleResult F64) (x : ℚ), c.compute δ = .ok r ∧ Is (c.zen.normalize.dot r.sun_e.normalize) x ∧
          (a + 1.3e-4 ≤ d → d ≤ e - 1.3e-4 → 0 < x ∧ (x ≤ 1 → ∃ z : ℚ, Is r.sza z ∧ (z : ℝ) < Real.pi / 2)) ∧
          (d ≤ a - 1.3e-4 ∨ e + 1.3e-4 ≤ d → x < 0 ∧ (-1 ≤ x → ∃ z : ℚ, Is r.sza z ∧ Real.pi / 2 < z))) ∧
      ((0 < b ∧ NorthSummer q.date.month q.date.day ∨ b < 0 ∧ NorthWinter q.date.month q.date.day) → 12 * 3600 < e - a) ∧
      ((0 < b ∧ NorthWinter q.date.month q.date.day ∨ b < 0 ∧ NorthSummer q.date.month q.date.day) → e - a < 12 * 3600) := by
  have gd : GoodDate (exactParams q s l b h).date := H₀.date
  obtain ⟨c, C, -, -, hc, hC, -⟩ := C72_sun_angle_f64 hL p q δ₀ s l b h d₀ N H₀
  obtain ⟨a, e, a1, a2, e1, e2, key, lg, st⟩ := C97_long_and_short_days p (exactParams q s l b h) gd C hC y1 y2
    (by show 30 ≤ |(b : ℝ)|; exact_mod_cast l1) (by show |(b : ℝ)| ≤ 60; exact_mod_cast l2) (by show |(l : ℝ)| ≤ 180; exact_mod_cast hlon) T hT
  refine ⟨c, a, e, hc, a1, a2, e1, e2, fun δ d H t1 t2 => ?_, fun k => lg (k.imp (And.imp_left fun k => ?_) (And.imp_left fun k => ?_)),
    fun k => st (k.imp (And.imp_left fun k => ?_) (And.imp_left fun k => ?_))⟩
  rotate_left
  · show (0 : ℝ) < b; exact_mod_cast k
  · show (b : ℝ) < 0; exact_mod_cast k
  · show (0 : ℝ) < b; exact_mod_cast k
  · show (b : ℝ) < 0; exact_mod_cast k
  obtain ⟨c', C', r, R, hc', hC', hr, hR, -, -, -, ⟨x, ix, ex⟩, -⟩ := C72_sun_angle_f64 hL p q δ s l b h d N H
  obtain rfl := Except.ok.inj (hc.symm.trans hc')
  obtain rfl := Except.ok.inj (hC.symm.trans hC')
  obtain ⟨R', hR', up, dn⟩ := key 1.3e-4 d (by norm_num) (by norm_num) t1 t2
  obtain rfl := Except.ok.inj (hR.symm.trans hR')
  obtain ⟨-, -, -, -, hsz, -⟩ := compute_geometry c δ hr
  refine ⟨r, x, hr, ix, fun h1 h2 => ?_, fun h1 => ?_⟩
  · obtain ⟨u, -⟩ := up h1 h2
    rw [abs_le] at ex
    norm_num at ex u
    have x0 : (5e-11 : ℝ) < x := by norm_num; linarith [ex.1]
    have xp : 0 < x := by
      have : (0 : ℝ) < x := by linarith [show (0 : ℝ) < 5e-11 by norm_num]
      exact_mod_cast this
    refine ⟨xp, fun x1 => ?_⟩
    obtain ⟨z, iz, ez⟩ : Near r.sza (Real.arccos x) (1 / 2 ^ 50) := by
      rw [hsz]; exact hL.acos _ x ix (by rw [abs_le]; constructor <;> linarith)
    refine ⟨z, iz, ?_⟩
    have a1 : (x : ℝ) ≤ Real.arcsin x := by
      have h1 : (x : ℝ) ≤ 1 := by exact_mod_cast x1
      have := Real.sin_le (Real.arcsin_nonneg.mpr (by linarith : (0 : ℝ) ≤ x))
      rwa [Real.sin_arcsin (by linarith) h1] at this
    rw [Real.arccos, abs_le] at ez
    norm_num at ez x0
    linarith [ez.2]
  · obtain ⟨u, -⟩ := dn h1
    rw [abs_le] at ex
    norm_num at ex u
    have x0 : (x : ℝ) < -5e-11 := by norm_num; linarith [ex.2]
    have xp : x < 0 := by
      have : (x : ℝ) < 0 := by linarith [show (0 : ℝ) < 5e-11 by norm_num]
      exact_mod_cast this
    refine ⟨xp, fun x1 => ?_⟩
    obtain ⟨z, iz, ez⟩ : Near r.sza (Real.arccos x) (1 / 2 ^ 50) := by
      rw [hsz]; exact hL.acos _ x ix (by rw [abs_le]; constructor <;> linarith)
    refine ⟨z, iz, ?_⟩
    have a1 : Real.arcsin x ≤ x := by
      have h1 : (-1 : ℝ) ≤ x := by exact_mod_cast x1
      have := Real.sin_le (x := -Real.arcsin x) (by rw [← Real.arcsin_neg]; exact Real.arcsin_nonneg.mpr (by linarith))
      rw [Real.sin_neg, Real.sin_arcsin h1 (by linarith)] at this
      linarith
    rw [Real.arccos, abs_le] at ez
    norm_num at ez x0
    linarith [ez.1]

/-- The default parameters of the program at 45 degrees north on 21 June 2007; a library that exists. -/
example : ∃ L : Libm F64, @LibmAcc L ∧
    SunInput ({ SunAngleParameters.default with date := ⟨2007, 6, 21⟩, position := ⟨lit (-120), lit 45, lit 0⟩ } : SunAngleParameters F64)
      (lit 7200) 0 (-120) 45 0 7200 54272 ∧ NorthSummer 6 21 := by
  have i0 : Is (lit 0 : F64) 0 := by have := Is.lit_int 0 (by norm_num); push_cast at this; exact this
  have i1 : Is (lit (-120) : F64) (-120) := by have := Is.lit_int (-120) (by norm_num); push_cast at this; exact this
  have i2 : Is (lit 7200 : F64) 7200 := by have := Is.lit_int 7200 (by norm_num); push_cast at this; exact this
  have i3 : Is (lit 45 : F64) 45 := by have := Is.lit_int 45 (by norm_num); push_cast at this; exact this
  refine ⟨goodLibm, exists_libmAcc, ⟨⟨by decide, by decide, by decide⟩, by decide, by decide, i0, by
    norm_num [SunAngleParameters.default], by norm_num [SunAngleParameters.default], i1, i3, i0, by norm_num, by norm_num, by norm_num, i2, by norm_num,
    daysFrom_epoch (by decide), by norm_num [SunAngleParameters.default]⟩, by unfold NorthSummer; decide⟩

end Verif
