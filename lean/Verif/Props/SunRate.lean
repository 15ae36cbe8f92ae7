import Verif.Lemmas.SunRate
import Verif.Props.MeanSun
import Verif.Props.SunAccuracy

/-!
# C90: how fast the zenith angle changes with the offset
-/

namespace Verif
open Arith Matrix Spec

/-- The Sun seen from the rotating Earth at two instants `T` (TT) and `U` (UT1): angle between the two directions. -/
theorem sun_lip {a b a' b' u v u' v' xp yp D : ℝ} (h : |a + b - 2451545| ≤ 36525) (h' : |a' + b' - 2451545| ≤ 36525)
    (hD : |a + b - (a' + b')| = D) (hU : |u + v - (u' + v')| = D) {s s' : Fin 3 → ℝ}
    (hs : s = (celestialToTerrestrial (a, b) (u, v) xp yp).toMatrix *ᵥ (-(earthAt (a + b)).heliocentric.p.toVec))
    (hs' : s' = (celestialToTerrestrial (a', b') (u', v') xp yp).toMatrix *ᵥ (-(earthAt (a' + b')).heliocentric.p.toVec)) :
    ang s s' ≤ 6.33 * D + 5e-19 := by
  have D0 : 0 ≤ D := hD ▸ abs_nonneg _
  have orth : ∀ {m : Mat3 ℝ}, IsRotation m → m.toMatrixᵀ * m.toMatrix = 1 := fun hm =>
    mul_eq_one_comm.mp ((isRotation_iff _).mp hm).1
  have R3o : ∀ t, (R3 t)ᵀ * R3 t = 1 := fun t => by
    have := orth (IsRotation.rotation 2 t); rwa [rot_R3] at this
  obtain ⟨d1, d2⟩ := earth_len h
  obtain ⟨d1', d2'⟩ := earth_len h'
  have W := orth (C38_polar_motion xp yp 0)
  have Co := orth (C38_celestial_to_intermediate (a, b) 0 0 0).2
  have Co' := orth (C38_celestial_to_intermediate (a', b') 0 0 0).2
  have prod : ∀ a b u v : ℝ, (celestialToTerrestrial (a, b) (u, v) xp yp).toMatrix *ᵥ (-(earthAt (a + b)).heliocentric.p.toVec) =
      (polarMotionMatrix xp yp 0).toMatrix *ᵥ (R3 (rotationAngle (u, v)) *ᵥ
        ((celestialToIntermediate (a, b)).toMatrix *ᵥ (-(earthAt (a + b)).heliocentric.p.toVec))) := by
    intro a b u v
    rw [C43_product, ← Matrix.mulVec_mulVec, ← Matrix.mulVec_mulVec]
    rfl
  rw [prod] at hs hs'
  have n1 : len ((celestialToIntermediate (a, b)).toMatrix *ᵥ (-(earthAt (a + b)).heliocentric.p.toVec)) =
    len (-(earthAt (a + b)).heliocentric.p.toVec) := len_mulVec Co _
  have n1' : len ((celestialToIntermediate (a', b')).toMatrix *ᵥ (-(earthAt (a' + b')).heliocentric.p.toVec)) =
    len (-(earthAt (a' + b')).heliocentric.p.toVec) := len_mulVec Co' _
  have hdiff := g_lip h h' hD
  rw [← n1] at d1
  rw [← n1'] at d1'
  generalize (celestialToIntermediate (a, b)).toMatrix *ᵥ (-(earthAt (a + b)).heliocentric.p.toVec) = g at *
  generalize (celestialToIntermediate (a', b')).toMatrix *ᵥ (-(earthAt (a' + b')).heliocentric.p.toVec) = g' at *
  have g0 : 0 < len g := lt_of_lt_of_le (by norm_num) d1
  have g0' : 0 < len g' := lt_of_lt_of_le (by norm_num) d1'
  rw [hs, hs', ang_mulVec W (by rw [len_mulVec (R3o _)]; exact g0) (by rw [len_mulVec (R3o _)]; exact g0')]
  refine (ang_triangle _ (R3 (rotationAngle (u, v)) *ᵥ g') _).trans ?_
  rw [ang_mulVec (R3o _) g0 g0']
  have q1 := ang_le_dist (by norm_num) d1 d1' hdiff
  have q2 := era_lip (a := u) (b := v) (a' := u') (b' := v') g0'
  rw [hU] at q2
  have q3 : Real.pi / 2 * ((0.01815 * D + 1.1e-19) / 0.982) ≤ 0.0291 * D + 2e-19 := by
    have p2 := Real.pi_lt_d4
    have := mul_le_mul_of_nonneg_right (show Real.pi / 2 ≤ 1.5708 by norm_num at p2 ⊢; linarith) (show 0 ≤ (0.01815 * D + 1.1e-19) / 0.982 by positivity)
    refine this.trans ?_
    norm_num; linarith
  norm_num at q1 q2 q3 ⊢
  linarith

/-- Vertical of a place in the terrestrial frame. -/
noncomputable def upward (lon lat : ℝ) : Fin 3 → ℝ :=
  ![Real.cos (lat * (Real.pi / 180)) * Real.cos (lon * (Real.pi / 180)),
    Real.cos (lat * (Real.pi / 180)) * Real.sin (lon * (Real.pi / 180)), Real.sin (lat * (Real.pi / 180))]

theorem upward_len (lon lat : ℝ) : len (upward lon lat) = 1 := by
  unfold len upward
  rw [Real.sqrt_eq_one]
  have a1 := Real.sin_sq_add_cos_sq (lat * (Real.pi / 180))
  have a2 := Real.sin_sq_add_cos_sq (lon * (Real.pi / 180))
  simp
  linear_combination a1 + Real.cos (lat * (Real.pi / 180)) ^ 2 * a2

/-- One result of a calculator: its instants, its delta AT, and the zenith angle as the angle between the vertical and the Sun. -/
theorem sun_at (p : Profile) (q : SunAngleParameters ℝ) (hd : GoodDate q.date) (c : SunAngleCalculator ℝ)
    (hc : SunAngleCalculator.new p q = .ok c) (N : ℤ) (hN : DaysFrom mjdEpoch q.date.civil N) (δ : ℝ)
    (hb : |N - 51544.5 + (3600 * q.time.hour + 60 * q.time.minute + q.time.second + δ) / 86400| ≤ 36524) :
    ∃ r, c.compute δ = .ok r ∧
      r.tt.1 + r.tt.2 = 2400000.5 + N + (3600 * q.time.hour + 60 * q.time.minute + q.time.second + δ) / 86400 + (r.dat + 32.184) / 86400 ∧
      r.ut1.1 + r.ut1.2 = 2400000.5 + N + (3600 * q.time.hour + 60 * q.time.minute + q.time.second + δ) / 86400 - 0.072073685 / 86400 ∧
      (q.date.year < 1960 → r.dat = 0) ∧
      (1960 ≤ q.date.year → deltaAt p q.date ((3600 * q.time.hour + 60 * q.time.minute + q.time.second) / 86400) =
        .ok (.ok (some r.dat))) ∧
      |r.dat| ≤ 100 ∧ |r.tt.1 + r.tt.2 - 2451545| ≤ 36525 ∧
      r.sza = ang (upward q.position.lon q.position.lat)
        ((celestialToTerrestrial r.tt r.ut1 (0.0349282 * AS2R) (0.4833163 * AS2R)).toMatrix *ᵥ
          (-(earthAt (r.tt.1 + r.tt.2)).heliocentric.p.toVec)) := by
  obtain ⟨r, N', hr, hN', -, -, -, -, -, htt, hut, -, hd0, hd1⟩ := C60_time_scales_exact p q hd c hc δ
  obtain rfl : N' = N := (daysFrom_unique _ _ (by decide) hd.civil _ hN').trans
    (daysFrom_unique _ _ (by decide) hd.civil _ hN).symm
  have hdat : |r.dat| ≤ 100 := by
    by_cases hy : q.date.year < 1960
    · rw [hd0 hy]; norm_num
    · have hf := ((C52_new_exact p q hd).1).mp ⟨c, hc⟩
      have e : (3600 * (q.time.hour : ℝ) + 60 * q.time.minute + q.time.second) / 86400 = q.time.toFractionOfDay := by
        unfold HMS.toFractionOfDay
        simp only [mul_real, add_real, div_real, lit_real, ofInt_real]
        push_cast
        ring
      exact deltaAt_real_le p q.date _ _ hd (by omega) (by rw [e]; exact hf.1) (by rw [e]; exact hf.2) (hd1 (by omega))
  obtain ⟨r', hr', h1, h2, h3, h4, h5, h6⟩ := C53_sun_zenith_angle p q hd c hc δ
  rw [hr] at hr'
  obtain rfl := Except.ok.inj hr'
  have b0 : |r.tt.1 + r.tt.2 - 2451545| ≤ 36525 := by
    rw [htt]
    rw [abs_le] at hdat hb ⊢
    norm_num at hdat hb ⊢
    constructor <;> linarith [hb.1, hb.2, hdat.1, hdat.2]
  obtain ⟨ne, d1, d2⟩ := C53_sun_distance p q hd c hc δ r hr b0
  have he := h2 _ (fromTDB_real _)
  have ev : (fun i => r.sun_e.toVec i / 149597870700) =
      (celestialToTerrestrial r.tt r.ut1 (0.0349282 * AS2R) (0.4833163 * AS2R)).toMatrix *ᵥ
        (-(earthAt (r.tt.1 + r.tt.2)).heliocentric.p.toVec) := by
    have : (fun i => -(149597870700 * r.earth.toVec i)) = (149597870700 : ℝ) • (-r.earth.toVec) := by
      ext i; simp
    rw [h1, this, mulVec_smul, ← he]
    ext i
    simp
  refine ⟨r, hr, htt, hut, hd0, hd1, hdat, b0, ?_⟩
  rw [← ev]
  have hz := h6 ne
  have hZ := upward_len q.position.lon q.position.lat
  have hS : len (fun i => r.sun_e.toVec i / 149597870700) = r.sun_e.norm / 149597870700 := by
    rw [norm_real]
    show Real.sqrt ((r.sun_e.x / 149597870700) ^ 2 + (r.sun_e.y / 149597870700) ^ 2 + (r.sun_e.z / 149597870700) ^ 2) = _
    rw [show (r.sun_e.x / 149597870700) ^ 2 + (r.sun_e.y / 149597870700) ^ 2 + (r.sun_e.z / 149597870700) ^ 2 =
      (r.sun_e.x ^ 2 + r.sun_e.y ^ 2 + r.sun_e.z ^ 2) / 149597870700 ^ 2 by ring, Real.sqrt_div' _ (by positivity),
      Real.sqrt_sq (by norm_num)]
  refine eq_ang (by rw [hZ]; norm_num) (by rw [hS]; linarith) h4 h5 ?_
  rw [hZ, hS, one_mul, ← mul_div_assoc, hz]
  unfold upward
  simp [Vec3.toVec]
  ring

/-- **C90.** For one calculator of the program in exact arithmetic and two offsets such that both instants are within 36524
days of 2000-01-01 12:00 UTC: the two solar zenith angles differ by at most `7.33e-5` radians (15.12 seconds of arc) per
second of offset. -/
theorem C90_zenith_angle_rate (p : Profile) (q : SunAngleParameters ℝ) (hd : GoodDate q.date) (c : SunAngleCalculator ℝ)
    (hc : SunAngleCalculator.new p q = .ok c) (δ δ' : ℝ) (N : ℤ) (hN : DaysFrom mjdEpoch q.date.civil N)
    (hb : |N - 51544.5 + (3600 * q.time.hour + 60 * q.time.minute + q.time.second + δ) / 86400| ≤ 36524)
    (hb' : |N - 51544.5 + (3600 * q.time.hour + 60 * q.time.minute + q.time.second + δ') / 86400| ≤ 36524) :
    ∃ r r', c.compute δ = .ok r ∧ c.compute δ' = .ok r' ∧ |r.sza - r'.sza| ≤ 7.33e-5 * |δ - δ'| + 1e-18 := by
  obtain ⟨r, hr, htt, hut, hd0, hd1, -, b0, hz⟩ := sun_at p q hd c hc N hN δ hb
  obtain ⟨r', hr', htt', hut', hd0', hd1', -, b0', hz'⟩ := sun_at p q hd c hc N hN δ' hb'
  have hdat : r.dat = r'.dat := by
    by_cases hy : q.date.year < 1960
    · rw [hd0 hy, hd0' hy]
    · have k := (hd1 (by omega)).symm.trans (hd1' (by omega))
      simpa using k
  refine ⟨r, r', hr, hr', ?_⟩
  rw [hz, hz']
  refine (ang_diff _ _ _).trans ?_
  have scale : ∀ x : ℝ, |x / 86400| = |x| / 86400 := fun x => by
    rw [abs_div, abs_of_pos (show (0 : ℝ) < 86400 by norm_num)]
  have D1 : |r.tt.1 + r.tt.2 - (r'.tt.1 + r'.tt.2)| = |δ - δ'| / 86400 := by
    rw [htt, htt', hdat, ← scale]
    ring_nf
  have D2 : |r.ut1.1 + r.ut1.2 - (r'.ut1.1 + r'.ut1.2)| = |δ - δ'| / 86400 := by
    rw [hut, hut', ← scale]
    ring_nf
  refine (sun_lip b0 b0' D1 D2 rfl rfl).trans ?_
  have := abs_nonneg (δ - δ')
  norm_num
  linarith

/-- The hypotheses hold for the default parameters of the program and offsets of 0 and 60 seconds. -/
example : GoodDate (SunAngleParameters.default (α := ℝ)).date ∧
    (∃ c, SunAngleCalculator.new .checked (SunAngleParameters.default (α := ℝ)) = .ok c) ∧
    DaysFrom mjdEpoch (SunAngleParameters.default (α := ℝ)).date.civil 54195 ∧ |(54195 : ℝ) - 51544.5 + (3600 * 12) / 86400| ≤ 36524 ∧
    |(54195 : ℝ) - 51544.5 + (3600 * 12 + 60) / 86400| ≤ 36524 := by
  refine ⟨⟨by decide, by decide, by decide⟩, ?_, daysFrom_epoch (by decide), by norm_num [abs_le], by norm_num [abs_le]⟩
  rw [(C52_new_exact _ _ ⟨by decide, by decide, by decide⟩).1]
  unfold SunAngleParameters.default HMS.toFractionOfDay
  norm_num

/-- A function that is Lipschitz up to a jump of `e` comes within `e + η` of every value in between. -/
theorem value_between {f : ℝ → ℝ} {a b L e η z : ℝ} (hab : a ≤ b) (L0 : 0 ≤ L) (η0 : 0 < η)
    (h : ∀ s ∈ Set.Icc a b, ∀ t ∈ Set.Icc a b, |f s - f t| ≤ L * |s - t| + e) (ha : f a ≤ z) (hb : z ≤ f b) :
    ∃ s ∈ Set.Icc a b, |f s - z| ≤ e + η := by
  set S := {s ∈ Set.Icc a b | f s ≤ z} with hS
  have ne : S.Nonempty := ⟨a, ⟨⟨le_refl _, hab⟩, ha⟩⟩
  have bd : BddAbove S := ⟨b, fun s hs => hs.1.2⟩
  set τ := η / (2 * (L + 1)) with hτ
  have τ0 : 0 < τ := by positivity
  obtain ⟨s, hs, hlt⟩ := exists_lt_of_lt_csSup ne (show sSup S - τ < sSup S by linarith)
  have hle : s ≤ sSup S := le_csSup bd hs
  set t := min (sSup S + τ) b with ht
  have cb : sSup S ≤ b := csSup_le ne (fun u hu => hu.1.2)
  have tI : t ∈ Set.Icc a b := ⟨le_min (by linarith [hs.1.1]) hab, min_le_right _ _⟩
  have ft : z ≤ f t := by
    rcases le_total (sSup S + τ) b with h1 | h1
    · by_contra hh
      push Not at hh
      have := le_csSup bd (show t ∈ S from ⟨tI, hh.le⟩)
      rw [ht, min_eq_left h1] at this
      linarith
    · rw [ht, min_eq_right h1]; exact hb
  have hst := h s hs.1 t tI
  have d : |s - t| ≤ 2 * τ := by
    rw [abs_le]; constructor
    · have := min_le_left (sSup S + τ) b; linarith
    · have : s ≤ t := le_min (by linarith) (hs.1.2)
      linarith
  have d2 : L * |s - t| ≤ η := by
    refine (mul_le_mul_of_nonneg_left d L0).trans ?_
    have : L * (2 * τ) = η * (L / (L + 1)) := by rw [hτ]; field_simp
    rw [this]
    have : L / (L + 1) ≤ 1 := by rw [div_le_one (by linarith)]; linarith
    nlinarith
  refine ⟨s, hs.1, ?_⟩
  have := hs.2
  rw [abs_le] at hst ⊢
  constructor <;> linarith [hst.1, hst.2]

/-- **C90.** Between two offsets of one calculator, both within 36524 days of 2000-01-01 12:00 UTC, the program in exact
arithmetic takes every zenith angle in between, to within `2e-18` radians: no value is jumped over. -/
theorem C90_every_angle_between (p : Profile) (q : SunAngleParameters ℝ) (hd : GoodDate q.date) (c : SunAngleCalculator ℝ)
    (hc : SunAngleCalculator.new p q = .ok c) (δ δ' : ℝ) (N : ℤ) (hN : DaysFrom mjdEpoch q.date.civil N)
    (hb : |N - 51544.5 + (3600 * q.time.hour + 60 * q.time.minute + q.time.second + δ) / 86400| ≤ 36524)
    (hb' : |N - 51544.5 + (3600 * q.time.hour + 60 * q.time.minute + q.time.second + δ') / 86400| ≤ 36524)
    (hle : δ ≤ δ') (r r' : SunAngleResult ℝ) (hr : c.compute δ = .ok r) (hr' : c.compute δ' = .ok r') (z : ℝ)
    (hz : r.sza ≤ z ∧ z ≤ r'.sza ∨ r'.sza ≤ z ∧ z ≤ r.sza) :
    ∃ δ₀ r₀, δ ≤ δ₀ ∧ δ₀ ≤ δ' ∧ c.compute δ₀ = .ok r₀ ∧ |r₀.sza - z| ≤ 2e-18 := by
  have ex : ∀ δ, ∃ r, c.compute δ = .ok r := fun δ => by
    obtain ⟨r, hr, -⟩ := C53_sun_zenith_angle p q hd c hc δ; exact ⟨r, hr⟩
  choose R hR using ex
  have e1 : R δ = r := Except.ok.inj ((hR δ).symm.trans hr)
  have e2 : R δ' = r' := Except.ok.inj ((hR δ').symm.trans hr')
  have lip : ∀ s ∈ Set.Icc δ δ', ∀ t ∈ Set.Icc δ δ', |(R s).sza - (R t).sza| ≤ 7.33e-5 * |s - t| + 1e-18 := by
    intro s hs t ht
    have rng : ∀ u ∈ Set.Icc δ δ', |N - 51544.5 + (3600 * q.time.hour + 60 * q.time.minute + q.time.second + u) / 86400| ≤ 36524 := by
      intro u hu
      rw [abs_le] at hb hb' ⊢
      constructor
      · refine hb.1.trans ?_
        linarith [hu.1]
      · refine le_trans ?_ hb'.2
        linarith [hu.2]
    obtain ⟨x, y, hx, hy, hxy⟩ := C90_zenith_angle_rate p q hd c hc s t N hN (rng s hs) (rng t ht)
    rw [show R s = x from Except.ok.inj ((hR s).symm.trans hx), show R t = y from Except.ok.inj ((hR t).symm.trans hy)]
    exact hxy
  rcases hz with ⟨h1, h2⟩ | ⟨h1, h2⟩
  · obtain ⟨s, hs, k⟩ := value_between (f := fun s => (R s).sza) (z := z) (η := 1e-18) hle (by norm_num) (by norm_num) lip
      (by rw [e1]; exact h1) (by rw [e2]; exact h2)
    exact ⟨s, R s, hs.1, hs.2, hR s, by norm_num at k ⊢; linarith⟩
  · obtain ⟨s, hs, k⟩ := value_between (f := fun s => -(R s).sza) (z := -z) (L := 7.33e-5) (e := 1e-18) (η := 1e-18) hle (by norm_num) (by norm_num)
      (fun s hs t ht => by
        rw [show -(R s).sza - -(R t).sza = -((R s).sza - (R t).sza) by ring, abs_neg]; exact lip s hs t ht)
      (by rw [e1]; linarith) (by rw [e2]; linarith)
    refine ⟨s, R s, hs.1, hs.2, hR s, ?_⟩
    rw [show -(R s).sza - -z = -((R s).sza - z) by ring, abs_neg] at k
    norm_num at k ⊢; linarith

/-- **C90.** Up to 60 degrees of latitude the Sun rises and sets every day: for every day `k` of local mean solar time
(hours `24 k` to `24 k + 24` of `T`, UTC plus one hour for every 15 degrees of east longitude, counted from the date of the
parameters) within a century of J2000.0 there is an offset in the morning, between two and ten o'clock, and one in the
afternoon, between 14 and 22 o'clock, at which the zenith angle is a right angle to within `2e-18` radians. -/
theorem C90_sunrise_and_sunset (p : Profile) (q : SunAngleParameters ℝ) (hd : GoodDate q.date) (c : SunAngleCalculator ℝ)
    (hc : SunAngleCalculator.new p q = .ok c) (N : ℤ) (hN : DaysFrom mjdEpoch q.date.civil N) (hlat : |q.position.lat| ≤ 60)
    (T : ℝ → ℝ) (hT : ∀ δ, T δ = (3600 * q.time.hour + 60 * q.time.minute + q.time.second + δ) / 3600 + q.position.lon / 15)
    (k : ℤ) (hk : |(N + k : ℝ) - 51544 - q.position.lon / 360| ≤ 36523) :
    (∃ δ r, 24 * k + 2 ≤ T δ ∧ T δ ≤ 24 * k + 10 ∧ c.compute δ = .ok r ∧ |r.sza - Real.pi / 2| ≤ 2e-18) ∧
    (∃ δ r, 24 * k + 14 ≤ T δ ∧ T δ ≤ 24 * k + 22 ∧ c.compute δ = .ok r ∧ |r.sza - Real.pi / 2| ≤ 2e-18) := by
  set S : ℝ := 3600 * q.time.hour + 60 * q.time.minute + q.time.second with hS
  have inv : ∀ h : ℝ, T (3600 * (24 * k + h - q.position.lon / 15) - S) = 24 * k + h := fun h => by rw [hT]; ring
  have rng : ∀ h : ℝ, 0 ≤ h → h ≤ 24 → |N - 51544.5 + (S + (3600 * (24 * k + h - q.position.lon / 15) - S)) / 86400| ≤ 36524 := by
    intro h h0 h1
    rw [show N - 51544.5 + (S + (3600 * (24 * k + h - q.position.lon / 15) - S)) / 86400 = (N + k : ℝ) - 51544 - q.position.lon / 360 + (h / 24 - 0.5) by
      norm_num; ring]
    rw [abs_le] at hk ⊢
    norm_num at hk ⊢
    constructor <;> linarith [hk.1, hk.2]
  have at' : ∀ h : ℝ, 0 ≤ h → h ≤ 24 → _ := fun h h0 h1 =>
    C84_noon_and_midnight p q hd c hc (3600 * (24 * k + h - q.position.lon / 15) - S) N hN _ (24 * k + h) rfl (rng h h0 h1) hlat
      (by rw [← hS]; ring)
  obtain ⟨r2, c2, -, n2⟩ := at' 2 (by norm_num) (by norm_num)
  obtain ⟨r10, c10, u10, -⟩ := at' 10 (by norm_num) (by norm_num)
  obtain ⟨r14, c14, u14, -⟩ := at' 14 (by norm_num) (by norm_num)
  obtain ⟨r22, c22, -, n22⟩ := at' 22 (by norm_num) (by norm_num)
  have n2 := n2 ⟨k, by rw [show 24 * (k : ℝ) + 2 - 24 * k = 2 by ring]; norm_num⟩
  have u10 := u10 ⟨k, by rw [show 24 * (k : ℝ) + 10 - 12 - 24 * k = -2 by ring]; norm_num⟩
  have u14 := u14 ⟨k, by rw [show 24 * (k : ℝ) + 14 - 12 - 24 * k = 2 by ring]; norm_num⟩
  have n22 := n22 ⟨k + 1, by push_cast; rw [show 24 * (k : ℝ) + 22 - 24 * (k + 1) = -2 by ring]; norm_num⟩
  have mono : ∀ {s t : ℝ}, s ≤ t → T s ≤ T t := fun h => by rw [hT, hT]; linarith
  refine ⟨?_, ?_⟩
  · obtain ⟨δ, r, l1, l2, hr, hz⟩ := C90_every_angle_between p q hd c hc _ _ N hN (rng 2 (by norm_num) (by norm_num))
      (rng 10 (by norm_num) (by norm_num)) (by linarith) r2 r10 c2 c10 (Real.pi / 2) (.inr ⟨u10.le, n2.le⟩)
    have m1 := mono l1
    have m2 := mono l2
    rw [inv] at m1 m2
    exact ⟨δ, r, m1, m2, hr, hz⟩
  · obtain ⟨δ, r, l1, l2, hr, hz⟩ := C90_every_angle_between p q hd c hc _ _ N hN (rng 14 (by norm_num) (by norm_num))
      (rng 22 (by norm_num) (by norm_num)) (by linarith) r14 r22 c14 c22 (Real.pi / 2) (.inl ⟨u14.le, n22.le⟩)
    have m1 := mono l1
    have m2 := mono l2
    rw [inv] at m1 m2
    exact ⟨δ, r, m1, m2, hr, hz⟩

/-- The default parameters of the program, for the day itself and the three after it. -/
example : |(SunAngleParameters.default (α := ℝ)).position.lat| ≤ 60 ∧
    ∀ k ∈ [0, 1, 2, 3], |((54195 : ℤ) + (k : ℤ) : ℝ) - 51544 - (SunAngleParameters.default (α := ℝ)).position.lon / 360| ≤ 36523 := by
  constructor
  · norm_num [SunAngleParameters.default]
  · intro k hk
    fin_cases hk <;> norm_num [SunAngleParameters.default, abs_le]

/-- **C90.** The rate in binary64: for finite parameters within a century of J2000.0, any mathematical library accurate to
`2^-50` and two offsets, when both exact zenith angles are between 0.5 and 2.6 radians, the `f64` ones differ by at most
`7.33e-5` radians per second of offset plus `5.3e-9`. -/
theorem C90_zenith_angle_rate_f64 [Libm F64] (hL : LibmAcc) (p : Profile) (q : SunAngleParameters F64) (δ δ' : F64) (s l b h d d' : ℚ)
    (N : ℤ) (H : SunInput q δ s l b h d N) (H' : SunInput q δ' s l b h d' N) :
    ∃ (c : SunAngleCalculator F64) (C : SunAngleCalculator ℝ) (r r' : SunAngleResult F64) (R R' : SunAngleResult ℝ),
      SunAngleCalculator.new p q = .ok c ∧ SunAngleCalculator.new p (exactParams q s l b h) = .ok C ∧
      c.compute δ = .ok r ∧ c.compute δ' = .ok r' ∧ C.compute (d : ℝ) = .ok R ∧ C.compute (d' : ℝ) = .ok R' ∧
      (0.5 ≤ R.sza → R.sza ≤ 2.6 → 0.5 ≤ R'.sza → R'.sza ≤ 2.6 →
        ∃ z z' : ℚ, Is r.sza z ∧ Is r'.sza z' ∧ |z - z'| ≤ 7.33e-5 * |d - d'| + 5.3e-9) := by
  have gd : GoodDate (exactParams q s l b h).date := H.date
  have cent : ∀ {δ : F64} {d : ℚ}, SunInput q δ s l b h d N →
      |(N : ℝ) - 51544.5 + (3600 * q.time.hour + 60 * q.time.minute + s + d) / 86400| ≤ 36524 := by
    intro δ d H
    have h1 := (Rat.cast_le (K := ℝ)).mpr H.century
    push_cast at h1
    refine le_trans (le_of_eq (congrArg (fun x : ℝ => |x|) ?_)) h1
    norm_num
    ring
  have sinb : ∀ {x : ℝ}, 0.5 ≤ x → x ≤ 2.6 → 0.468 ≤ Real.sin x := by
    intro x h0 h1
    have mid : ∀ {y : ℝ}, 0.5 ≤ y → y ≤ Real.pi / 2 → 0.468 ≤ Real.sin y := by
      intro y h0 h1
      have k1 := Real.sin_gt_sub_cube (x := 0.5) (by norm_num)
      have k2 := Real.sin_le_sin_of_le_of_le_pi_div_two (by linarith [Real.pi_pos]) h1 h0
      norm_num at k1 k2 ⊢
      linarith
    rcases le_total x (Real.pi / 2) with h2 | h2
    · exact mid h0 h2
    · rw [← Real.sin_pi_sub]
      have p1 := Real.pi_gt_d4
      norm_num at p1 h1
      exact mid (by norm_num; linarith) (by linarith)
  have acc : ∀ {u : F64} {R : ℝ}, 0.468 ≤ Real.sin R → Near u R (1.23 / 10 ^ 9 / Real.sin R + 1 / 2 ^ 50) →
      ∃ z : ℚ, Is u z ∧ |(z : ℝ) - R| ≤ 2.64e-9 := by
    intro u R hs hn
    obtain ⟨z, hz, hd⟩ := hn
    refine ⟨z, hz, hd.trans ?_⟩
    have : 1.23 / 10 ^ 9 / Real.sin R ≤ 1.23 / 10 ^ 9 / 0.468 := by gcongr
    refine (add_le_add this le_rfl).trans ?_
    norm_num
  obtain ⟨c, C, r, R, hc, hC, hr, hR, -, -, -, -, ac⟩ := C72_sun_angle_f64 hL p q δ s l b h d N H
  obtain ⟨c2, C2, r', R', hc2, hC2, hr', hR', -, -, -, -, ac'⟩ := C72_sun_angle_f64 hL p q δ' s l b h d' N H'
  obtain rfl := Except.ok.inj (hc.symm.trans hc2)
  obtain rfl := Except.ok.inj (hC.symm.trans hC2)
  refine ⟨c, C, r, r', R, R', hc, hC, hr, hr', hR, hR', fun z1 z2 z1' z2' => ?_⟩
  have s1 := sinb z1 z2
  have s1' := sinb z1' z2'
  obtain ⟨z, iz, k⟩ := acc s1 (ac (le_trans (by norm_num) s1))
  obtain ⟨z', iz', k'⟩ := acc s1' (ac' (le_trans (by norm_num) s1'))
  refine ⟨z, z', iz, iz', ?_⟩
  obtain ⟨x, y, hx, hy, hxy⟩ := C90_zenith_angle_rate p (exactParams q s l b h) gd C hC d d' N H.days (cent H) (cent H')
  obtain rfl := Except.ok.inj (hR.symm.trans hx)
  obtain rfl := Except.ok.inj (hR'.symm.trans hy)
  have : |(z : ℝ) - z'| ≤ 7.33e-5 * |(d : ℝ) - d'| + 5.3e-9 := by
    clear * - k k' hxy
    generalize |(d : ℝ) - d'| = D at *
    rw [abs_le] at *
    norm_num at *
    constructor <;> linarith [k.1, k.2, k'.1, k'.2, hxy.1, hxy.2]
  have e : ((7.33e-5 * |d - d'| + 5.3e-9 : ℚ) : ℝ) = 7.33e-5 * |(d : ℝ) - d'| + 5.3e-9 := by push_cast; norm_num
  rw [← Rat.cast_le (K := ℝ), e]
  push_cast
  exact this

/-- The default parameters of the program with offsets of one hour and of one hour and one minute; a library that exists. -/
example : ∃ L : Libm F64, @LibmAcc L ∧
    SunInput (SunAngleParameters.default : SunAngleParameters F64) (lit 3600) 0 (-120) 0 0 3600 54195 ∧
    SunInput (SunAngleParameters.default : SunAngleParameters F64) (lit 3660) 0 (-120) 0 0 3660 54195 := by
  have i0 : Is (lit 0 : F64) 0 := by have := Is.lit_int 0 (by norm_num); push_cast at this; exact this
  have i1 : Is (lit (-120) : F64) (-120) := by have := Is.lit_int (-120) (by norm_num); push_cast at this; exact this
  have i2 : Is (lit 3600 : F64) 3600 := by have := Is.lit_int 3600 (by norm_num); push_cast at this; exact this
  have i3 : Is (lit 3660 : F64) 3660 := by have := Is.lit_int 3660 (by norm_num); push_cast at this; exact this
  refine ⟨goodLibm, exists_libmAcc, ⟨⟨by decide, by decide, by decide⟩, by decide, by decide, i0, by
    norm_num [SunAngleParameters.default], by norm_num [SunAngleParameters.default], i1, i0, i0, by norm_num, by norm_num, by norm_num, i2, by norm_num,
    daysFrom_epoch (by decide), by norm_num [SunAngleParameters.default]⟩, ⟨⟨by decide, by decide, by decide⟩, by decide, by decide, i0, by
    norm_num [SunAngleParameters.default], by norm_num [SunAngleParameters.default], i1, i0, i0, by norm_num, by norm_num, by norm_num, i3, by norm_num,
    daysFrom_epoch (by decide), by norm_num [SunAngleParameters.default]⟩⟩

end Verif
