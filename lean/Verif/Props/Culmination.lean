import Verif.Props.SunDay

/-!
# C96: the Sun culminates within half an hour of mean noon
-/

namespace Verif
open Arith Matrix Spec F64

/-- From the motion of the Sun vector to that of the cosine of the zenith angle; `e` is 1 or -1. -/
theorem climb_cos_long {z s s' sm : Fin 3 → ℝ} {D α κ e : ℝ} (hz : len z = 1) (D0 : 0 ≤ D) (D1 : D ≤ 0.4584)
    (hα : α = Real.pi * 1.00273781191135448 * D) (he : |e| = 1) (κ0 : 0 ≤ κ)
    (hs' : 0.982 ≤ len s') (hs'' : len s' ≤ 1.019) (hl : |len s - len s'| ≤ 0.01753 * D)
    (h : len (s' - s - (2 * Real.sin α) • (KJ *ᵥ sm)) ≤ 0.01819 * D + 1e-18)
    (hP : 0.0369 * κ ≤ e * (z 0 * sm 1 - z 1 * sm 0)) :
    (0.1451 * κ - 0.0365) * D - 2e-18 ≤ e * (Real.cos (ang z s') - Real.cos (ang z s)) := by
  have c1 := cos_ang z s
  have c2 := cos_ang z s'
  rw [hz, one_mul] at c1 c2
  have hdot := dot_le z (s' - s - (2 * Real.sin α) • (KJ *ᵥ sm))
  rw [hz, one_mul] at hdot
  have hdot := hdot.trans h
  have k0 : (KJ *ᵥ sm) 0 = sm 1 := by simp [KJ, Matrix.mulVec, dotProduct, Fin.sum_univ_three]
  have k1 : (KJ *ᵥ sm) 1 = -sm 0 := by simp [KJ, Matrix.mulVec, dotProduct, Fin.sum_univ_three]
  have k2 : (KJ *ᵥ sm) 2 = 0 := by simp [KJ, Matrix.mulVec, dotProduct, Fin.sum_univ_three]
  simp only [Pi.sub_apply, Pi.smul_apply, smul_eq_mul, k0, k1, k2] at hdot
  have hσ : 2.005 * D ≤ Real.sin α := by
    have p1 := Real.pi_gt_d6
    have p2 := Real.pi_lt_d6
    have a1 : 3.1501 * D ≤ α := by
      rw [hα]; refine mul_le_mul_of_nonneg_right ?_ D0; norm_num at p1 ⊢; linarith
    have a2 : α ≤ 3.1502 * D := by
      rw [hα]; refine mul_le_mul_of_nonneg_right ?_ D0; norm_num at p2 ⊢; linarith
    refine le_trans ?_ (Real.mul_le_sin (le_trans (by positivity) a1) (by norm_num at a2 p1 D1 ⊢; linarith))
    have a3 : 0.6366 ≤ 2 / Real.pi := by
      rw [le_div_iff₀ (by positivity)]; norm_num at p2 ⊢; linarith
    have := mul_le_mul a3 a1 (by positivity) (by positivity)
    norm_num at this ⊢
    linarith
  have e2 : e = 1 ∨ e = -1 := by
    rcases le_total 0 e with h0 | h0
    · left; rwa [abs_of_nonneg h0] at he
    · right; rw [abs_of_nonpos h0] at he; linarith
  have hb : |z 0 * s' 0 + z 1 * s' 1 + z 2 * s' 2 - (z 0 * s 0 + z 1 * s 1 + z 2 * s 2) -
      2 * Real.sin α * (z 0 * sm 1 - z 1 * sm 0)| ≤ 0.01819 * D + 1e-18 := by
    refine le_trans (le_of_eq (congrArg (fun x : ℝ => |x|) ?_)) hdot
    ring
  rw [← c1, ← c2] at hb
  have ca := abs_le.mp (Real.abs_cos_le_one (ang z s))
  generalize Real.sin α = σ at *
  generalize z 0 * sm 1 - z 1 * sm 0 = P at *
  generalize Real.cos (ang z s) = C at *
  generalize Real.cos (ang z s') = C' at *
  generalize len s = d at *
  generalize len s' = d' at *
  clear hdot c1 c2 k0 k1 k2 h hα hz
  have hσP : 0.1479 * (κ * D) ≤ 2 * σ * (e * P) := by
    have := mul_le_mul hσ hP (by positivity) (le_trans (by positivity) hσ)
    have kd : 0 ≤ κ * D := by positivity
    norm_num at this ⊢
    linarith
  have hCd : |C * (d - d')| ≤ 0.01753 * D := by
    rw [abs_mul]
    exact (mul_le_of_le_one_left (abs_nonneg _) (abs_le.mpr ca)).trans hl
  have hY : 0.1479 * (κ * D) - 0.03572 * D - 1e-18 ≤ e * (C' - C) * d' := by
    have b1 := abs_le.mp hb
    have b2 := abs_le.mp hCd
    rcases e2 with rfl | rfl
    · norm_num at *; linarith
    · norm_num at *; linarith
  have hZ : ((0.1451 * κ - 0.0365) * D - 2e-18) * d' ≤ 0.1479 * (κ * D) - 0.03572 * D - 1e-18 := by
    have kd : 0 ≤ κ * D := by positivity
    have m1 := mul_le_mul_of_nonneg_left hs'' kd
    have m2 := mul_le_mul_of_nonneg_left hs' D0
    norm_num at m1 m2 hs' ⊢
    linarith
  by_contra hlt
  push Not at hlt
  have := mul_lt_mul_of_pos_right hlt (show 0 < d' by linarith)
  linarith

/-- The mean Sun moves upwards all morning and downwards all afternoon. -/
theorem mean_climb_long {lon n sec T : ℝ} {N k : ℤ} (hn : n = N - 51544.5 + sec / 86400) (hb : |n| ≤ 36525)
    (hT : T = sec / 3600 + lon / 15) :
    (|T - 6 - 24 * k| ≤ 5.5 → 0.0385 ≤ Real.cos (lon * (Real.pi / 180)) * meanSun n 1 - Real.sin (lon * (Real.pi / 180)) * meanSun n 0) ∧
    (|T - 18 - 24 * k| ≤ 5.5 → 0.0385 ≤ Real.sin (lon * (Real.pi / 180)) * meanSun n 0 - Real.cos (lon * (Real.pi / 180)) * meanSun n 1) := by
  have hpi := Real.pi_pos
  have p1 := Real.pi_gt_d6
  have p2 := Real.pi_lt_d6
  have hour : ∀ t : ℝ, |t| ≤ 5.5 → 0.1305 ≤ Real.cos (Real.pi / 12 * t) := by
    intro t ht
    have : Real.sin (Real.pi / 24) ≤ Real.cos (Real.pi / 12 * t) := by
      rw [← Real.cos_abs (Real.pi / 12 * t), ← Real.cos_pi_div_two_sub]
      apply Real.cos_le_cos_of_nonneg_of_le_pi (abs_nonneg _) (by linarith)
      rw [abs_mul, abs_of_pos (by positivity : 0 < Real.pi / 12)]
      have := mul_le_mul_of_nonneg_left ht (by positivity : 0 ≤ Real.pi / 12)
      norm_num at this
      linarith
    refine le_trans ?_ this
    have k1 := Real.sin_gt_sub_cube (x := 0.13089) (by norm_num)
    have k2 := Real.sin_le_sin_of_le_of_le_pi_div_two (x := 0.13089) (y := Real.pi / 24) (by norm_num; linarith) (by linarith) (by norm_num at p1 ⊢; linarith)
    norm_num at k1 k2 ⊢
    linarith
  constructor <;> intro hk <;> have c1 := hour _ hk
  · have m := meridian (lam := lon * (Real.pi / 180) + Real.pi / 2) (h := Real.pi / 12 * (T - 6 - 24 * k)) hb
      ⟨N - 51544 + k, by rw [hn, hT]; push_cast; ring⟩ (le_trans (by norm_num) c1)
    have s1 := Real.abs_sin_le_one (Real.pi / 12 * (T - 6 - 24 * k))
    rw [Real.cos_add_pi_div_two, Real.sin_add_pi_div_two] at m
    norm_num at m c1 ⊢
    linarith
  · have m := meridian (lam := lon * (Real.pi / 180) - Real.pi / 2) (h := Real.pi / 12 * (T - 18 - 24 * k)) hb
      ⟨N - 51544 + k, by rw [hn, hT]; push_cast; ring⟩ (le_trans (by norm_num) c1)
    have s1 := Real.abs_sin_le_one (Real.pi / 12 * (T - 18 - 24 * k))
    rw [Real.cos_sub_pi_div_two, Real.sin_sub_pi_div_two] at m
    norm_num at m c1 ⊢
    linarith

/-- **C96.** The Sun climbs from half past midnight to half past eleven and sinks from half past twelve to half past eleven at
night.  For one calculator in exact arithmetic, two offsets both within 36524 days of 2000-01-01 12:00 UTC, and any day `k` of
local mean solar time `T`: between hours 0.5 and 11.5 the cosine of the zenith angle grows by at least
`1.67e-6 cos(latitude) - 4.3e-7` per second (which is positive up to 75 degrees of latitude), and between hours 12.5 and 23.5 it
falls by at least that, up to `2e-18`. -/
theorem C96_half_days (p : Profile) (q : SunAngleParameters ℝ) (hd : GoodDate q.date) (c : SunAngleCalculator ℝ)
    (hc : SunAngleCalculator.new p q = .ok c) (δ δ' : ℝ) (N : ℤ) (hN : DaysFrom mjdEpoch q.date.civil N)
    (hb : |N - 51544.5 + (3600 * q.time.hour + 60 * q.time.minute + q.time.second + δ) / 86400| ≤ 36524)
    (hb' : |N - 51544.5 + (3600 * q.time.hour + 60 * q.time.minute + q.time.second + δ') / 86400| ≤ 36524)
    (hle : δ ≤ δ') (hlat : |q.position.lat| ≤ 90) (T : ℝ → ℝ)
    (hT : ∀ δ, T δ = (3600 * q.time.hour + 60 * q.time.minute + q.time.second + δ) / 3600 + q.position.lon / 15) (k : ℤ) :
    ∃ r r', c.compute δ = .ok r ∧ c.compute δ' = .ok r' ∧
      (24 * k + 0.5 ≤ T δ → T δ' ≤ 24 * k + 11.5 →
        (1.67e-6 * Real.cos (q.position.lat * (Real.pi / 180)) - 4.3e-7) * (δ' - δ) - 2e-18 ≤ Real.cos r'.sza - Real.cos r.sza) ∧
      (24 * k + 12.5 ≤ T δ → T δ' ≤ 24 * k + 23.5 →
        (1.67e-6 * Real.cos (q.position.lat * (Real.pi / 180)) - 4.3e-7) * (δ' - δ) - 2e-18 ≤ Real.cos r.sza - Real.cos r'.sza) := by
  have hbm : |N - 51544.5 + (3600 * q.time.hour + 60 * q.time.minute + q.time.second + (δ + δ') / 2) / 86400| ≤ 36524 := by
    rw [abs_le] at hb hb' ⊢
    constructor <;> linarith [hb.1, hb.2, hb'.1, hb'.2]
  obtain ⟨r, hr, htt, hut, hd0, hd1, -, b0, hz⟩ := sun_at p q hd c hc N hN δ hb
  obtain ⟨r', hr', htt', hut', hd0', hd1', -, b0', hz'⟩ := sun_at p q hd c hc N hN δ' hb'
  obtain ⟨rm, -, httm, hutm, hd0m, hd1m, hdat, b0m, -⟩ := sun_at p q hd c hc N hN _ hbm
  have same : ∀ {r r' : SunAngleResult ℝ}, (q.date.year < 1960 → r.dat = 0) →
      (1960 ≤ q.date.year → deltaAt p q.date ((3600 * q.time.hour + 60 * q.time.minute + q.time.second) / 86400) = .ok (.ok (some r.dat))) →
      (q.date.year < 1960 → r'.dat = 0) →
      (1960 ≤ q.date.year → deltaAt p q.date ((3600 * q.time.hour + 60 * q.time.minute + q.time.second) / 86400) = .ok (.ok (some r'.dat))) →
      r.dat = r'.dat := by
    intro r r' h0 h1 h0' h1'
    by_cases hy : q.date.year < 1960
    · rw [h0 hy, h0' hy]
    · have k := (h1 (by omega)).symm.trans (h1' (by omega))
      simpa using k
  have q1 := same hd0 hd1 hd0m hd1m
  have q2 := same hd0' hd1' hd0m hd1m
  refine ⟨r, r', hr, hr', ?_⟩
  set n : ℝ := N - 51544.5 + (3600 * q.time.hour + 60 * q.time.minute + q.time.second + (δ + δ') / 2) / 86400 with hn
  have D0 : 0 ≤ (δ' - δ) / 86400 := by apply div_nonneg <;> linarith
  have hv := climb_vec (u := r.ut1.1) (v := r.ut1.2) (u' := r'.ut1.1) (v' := r'.ut1.2) (um := rm.ut1.1) (vm := rm.ut1.2)
    (D := (δ' - δ) / 86400) b0 b0' b0m D0 (by rw [htt, httm, q1]; ring) (by rw [htt', httm, q2]; ring)
    (by rw [hut, hutm]; ring) (by rw [hut', hutm]; ring) rfl rfl rfl
  have near := sun_near (n := n) b0m (by
    rw [httm, show 2400000.5 + N + (3600 * q.time.hour + 60 * q.time.minute + q.time.second + (δ + δ') / 2) / 86400 + (rm.dat + 32.184) / 86400 -
      2451545 - n = (rm.dat + 32.184) / 86400 by rw [hn]; norm_num; ring]
    rw [abs_le] at hdat ⊢
    constructor <;> norm_num <;> linarith [hdat.1, hdat.2]) (by
    rw [hutm, show 2400000.5 + N + (3600 * q.time.hour + 60 * q.time.minute + q.time.second + (δ + δ') / 2) / 86400 - 0.072073685 / 86400 -
      2451545 - n = -0.072073685 / 86400 by rw [hn]; norm_num; ring]
    norm_num [abs_of_neg])
  have lens : ∀ {tt ut : ℝ × ℝ}, |tt.1 + tt.2 - 2451545| ≤ 36525 →
      len ((celestialToTerrestrial tt ut (0.0349282 * AS2R) (0.4833163 * AS2R)).toMatrix *ᵥ (-(earthAt (tt.1 + tt.2)).heliocentric.p.toVec)) =
        len (-(earthAt (tt.1 + tt.2)).heliocentric.p.toVec) := fun {tt ut} h =>
    len_mulVec (mul_eq_one_comm.mp ((isRotation_iff _).mp (C38_celestial_to_terrestrial tt ut _ _)).1) _
  have l1 := lens (ut := r.ut1) b0
  have l1' := lens (ut := r'.ut1) b0'
  obtain ⟨e1, e2⟩ := earth_len b0'
  rw [← l1'] at e1 e2
  have el : |len (-(earthAt (r.tt.1 + r.tt.2)).heliocentric.p.toVec) - len (-(earthAt (r'.tt.1 + r'.tt.2)).heliocentric.p.toVec)| ≤
      0.01753 * ((δ' - δ) / 86400) := by
    have h1 := earth_lip b0 b0'
    have ln : ∀ x : Fin 3 → ℝ, len (-x) = len x := fun x => by unfold len; simp
    rw [ln, ln]
    have a1 := len_add ((earthAt (r.tt.1 + r.tt.2)).heliocentric.p.toVec - (earthAt (r'.tt.1 + r'.tt.2)).heliocentric.p.toVec) (earthAt (r'.tt.1 + r'.tt.2)).heliocentric.p.toVec
    have a2 := len_sub (earthAt (r.tt.1 + r.tt.2)).heliocentric.p.toVec ((earthAt (r.tt.1 + r.tt.2)).heliocentric.p.toVec - (earthAt (r'.tt.1 + r'.tt.2)).heliocentric.p.toVec)
    rw [sub_add_cancel] at a1
    rw [sub_sub_cancel] at a2
    have e : |r.tt.1 + r.tt.2 - (r'.tt.1 + r'.tt.2)| = (δ' - δ) / 86400 := by
      rw [htt, htt', q1, q2, abs_sub_comm]
      rw [← abs_of_nonneg D0]
      ring_nf
    rw [e] at h1
    rw [abs_le]; constructor <;> linarith
  rw [← l1, ← l1'] at el
  have κ0 : 0 ≤ Real.cos (q.position.lat * (Real.pi / 180)) := by
    have hpi := Real.pi_pos
    have hl := abs_le.mp hlat
    have a1 := mul_le_mul_of_nonneg_right hl.1 hpi.le
    have a2 := mul_le_mul_of_nonneg_right hl.2 hpi.le
    clear * - a1 a2
    apply Real.cos_nonneg_of_neg_pi_div_two_le_of_le <;> linarith
  have D1 : ∀ x : ℝ, 24 * k + x ≤ T δ → T δ' ≤ 24 * k + (x + 11) → (δ' - δ) / 86400 ≤ 0.4584 := by
    intro x h1 h2
    rw [hT] at h1 h2
    norm_num
    linarith
  have mid : T ((δ + δ') / 2) = (T δ + T δ') / 2 := by rw [hT, hT, hT]; ring
  have mono : T δ ≤ T δ' := by rw [hT, hT]; linarith
  obtain ⟨m1, m2⟩ := mean_climb_long (lon := q.position.lon) (k := k) hn (hbm.trans (by norm_num)) (hT ((δ + δ') / 2))
  rw [mid] at m1 m2
  rw [hz, hz']
  have hdist := dot_le ![-Real.sin (q.position.lon * (Real.pi / 180)), Real.cos (q.position.lon * (Real.pi / 180)), 0]
    ((celestialToTerrestrial (rm.tt.1, rm.tt.2) (rm.ut1.1, rm.ut1.2) (0.0349282 * AS2R) (0.4833163 * AS2R)).toMatrix *ᵥ
      (-(earthAt (rm.tt.1 + rm.tt.2)).heliocentric.p.toVec) - meanSun n)
  have hu : len ![-Real.sin (q.position.lon * (Real.pi / 180)), Real.cos (q.position.lon * (Real.pi / 180)), 0] = 1 := by
    unfold len
    rw [Real.sqrt_eq_one]
    simp
  rw [hu, one_mul] at hdist
  have hdist := hdist.trans near
  have v0 : upward q.position.lon q.position.lat 0 = Real.cos (q.position.lat * (Real.pi / 180)) * Real.cos (q.position.lon * (Real.pi / 180)) := rfl
  have v1 : upward q.position.lon q.position.lat 1 = Real.cos (q.position.lat * (Real.pi / 180)) * Real.sin (q.position.lon * (Real.pi / 180)) := rfl
  have uz := upward_len q.position.lon q.position.lat
  clear near lens hz hz' htt htt' httm hut hut' hutm hd0 hd0' hd0m hd1 hd1' hd1m same q1 q2 hdat l1 l1' hu hb hb' hbm
  clear_value n
  change len (_ - _ - _ • (_ *ᵥ ((celestialToTerrestrial (rm.tt.1, rm.tt.2) (rm.ut1.1, rm.ut1.2) (0.0349282 * AS2R) (0.4833163 * AS2R)).toMatrix *ᵥ
      (-(earthAt (rm.tt.1 + rm.tt.2)).heliocentric.p.toVec)))) ≤ _ at hv
  generalize (celestialToTerrestrial (rm.tt.1, rm.tt.2) (rm.ut1.1, rm.ut1.2) (0.0349282 * AS2R) (0.4833163 * AS2R)).toMatrix *ᵥ
      (-(earthAt (rm.tt.1 + rm.tt.2)).heliocentric.p.toVec) = sm at *
  simp only [Pi.sub_apply, Matrix.cons_val_zero, Matrix.cons_val_one, Matrix.cons_val] at hdist
  generalize Real.cos (q.position.lat * (Real.pi / 180)) = κ at *
  generalize Real.cos (q.position.lon * (Real.pi / 180)) = cl at *
  generalize Real.sin (q.position.lon * (Real.pi / 180)) = sl at *
  have fin : ∀ {x : ℝ}, (0.1451 * κ - 0.0365) * ((δ' - δ) / 86400) - 2e-18 ≤ x → (1.67e-6 * κ - 4.3e-7) * (δ' - δ) - 2e-18 ≤ x := by
    intro x hx
    refine le_trans ?_ hx
    have : 0 ≤ κ * (δ' - δ) := mul_nonneg κ0 (by linarith)
    norm_num
    linarith
  have bd := abs_le.mp hdist
  refine ⟨fun h1 h2 => fin ?_, fun h1 h2 => fin ?_⟩
  · have m := m1 (by rw [abs_le]; norm_num at h1 h2 ⊢; constructor <;> linarith)
    have hP : 0.0369 * κ ≤ 1 * (upward q.position.lon q.position.lat 0 * sm 1 - upward q.position.lon q.position.lat 1 * sm 0) := by
      rw [v0, v1, show 1 * (κ * cl * sm 1 - κ * sl * sm 0) = (cl * sm 1 - sl * sm 0) * κ by ring]
      refine mul_le_mul_of_nonneg_right ?_ κ0
      norm_num at *; linarith [bd.1]
    have := climb_cos_long uz D0 (D1 0.5 h1 (by norm_num at h2 ⊢; linarith)) rfl (by norm_num) κ0 e1 e2 el hv hP
    rw [one_mul] at this
    exact this
  · have m := m2 (by rw [abs_le]; norm_num at h1 h2 ⊢; constructor <;> linarith)
    have hP : 0.0369 * κ ≤ (-1) * (upward q.position.lon q.position.lat 0 * sm 1 - upward q.position.lon q.position.lat 1 * sm 0) := by
      rw [v0, v1, show (-1) * (κ * cl * sm 1 - κ * sl * sm 0) = (sl * sm 0 - cl * sm 1) * κ by ring]
      refine mul_le_mul_of_nonneg_right ?_ κ0
      norm_num at *; linarith [bd.2]
    have := climb_cos_long uz D0 (D1 12.5 h1 (by norm_num at h2 ⊢; linarith)) rfl (by norm_num) κ0 e1 e2 el hv hP
    rw [neg_one_mul, neg_sub] at this
    exact this


/-- Two offsets of the default parameters, at four and at ten in the morning. -/
example : GoodDate (SunAngleParameters.default (α := ℝ)).date ∧ |(SunAngleParameters.default (α := ℝ)).position.lat| ≤ 90 ∧
    (24 * ((0 : ℤ) : ℝ) + 0.5 ≤ (12 * 3600 + 0 : ℝ) / 3600 + (SunAngleParameters.default (α := ℝ)).position.lon / 15) ∧
    ((12 * 3600 + 21600 : ℝ) / 3600 + (SunAngleParameters.default (α := ℝ)).position.lon / 15 ≤ 24 * ((0 : ℤ) : ℝ) + 11.5) := by
  refine ⟨⟨by decide, by decide, by decide⟩, ?_, ?_, ?_⟩ <;> norm_num [SunAngleParameters.default, abs_le]

theorem cos_lat {b x : ℝ} (h : |b| ≤ x) (hx : x ≤ 180) : Real.cos (x * (Real.pi / 180)) ≤ Real.cos (b * (Real.pi / 180)) := by
  have hpi := Real.pi_pos
  rw [← Real.cos_abs (b * _), abs_mul, abs_of_pos (by positivity : 0 < Real.pi / 180)]
  refine Real.cos_le_cos_of_nonneg_of_le_pi (by positivity) ?_ (mul_le_mul_of_nonneg_right h (by positivity))
  have := mul_le_mul_of_nonneg_right hx (by positivity : 0 ≤ Real.pi / 180)
  linarith

theorem cos_75 : 0.2587 ≤ Real.cos (75 * (Real.pi / 180)) := by
  rw [show (75 : ℝ) * (Real.pi / 180) = Real.pi / 2 - Real.pi / 12 by ring, Real.cos_pi_div_two_sub]
  have p1 := Real.pi_gt_d6
  have p2 := Real.pi_lt_d6
  have k1 := Real.sin_gt_sub_cube (x := 0.26179) (by norm_num)
  have k2 := Real.sin_le_sin_of_le_of_le_pi_div_two (x := 0.26179) (y := Real.pi / 12) (by norm_num; linarith) (by linarith) (by norm_num at p1 ⊢; linarith)
  norm_num at k1 k2 ⊢
  linarith

/-- **C96.** The highest Sun of a day, up to 75 degrees of latitude: for every day `k` of local mean solar time there is an offset
`a` within half an hour of noon such that at every offset from half past midnight to half past eleven at night, in exact
arithmetic, the cosine of the zenith angle is at most that at `a`, up to `5e-18`; and an offset `b` within half an hour of the
midnight that ends the day such that from half past twelve to half past eleven on the next morning it is at least that at `b`. -/
theorem C96_culmination (p : Profile) (q : SunAngleParameters ℝ) (hd : GoodDate q.date) (c : SunAngleCalculator ℝ)
    (hc : SunAngleCalculator.new p q = .ok c) (N : ℤ) (hN : DaysFrom mjdEpoch q.date.civil N) (hlat : |q.position.lat| ≤ 75)
    (T : ℝ → ℝ) (hT : ∀ δ, T δ = (3600 * q.time.hour + 60 * q.time.minute + q.time.second + δ) / 3600 + q.position.lon / 15)
    (k : ℤ) (hk : |(N + k : ℝ) - 51544 - q.position.lon / 360| ≤ 36522) :
    (∃ a ra, |T a - 12 - 24 * k| ≤ 0.5 ∧ c.compute a = .ok ra ∧ ∀ δ, 24 * k + 0.5 ≤ T δ → T δ ≤ 24 * k + 23.5 →
      ∃ r, c.compute δ = .ok r ∧ Real.cos r.sza ≤ Real.cos ra.sza + 5e-18) ∧
    ∃ b rb, |T b - 24 - 24 * k| ≤ 0.5 ∧ c.compute b = .ok rb ∧ ∀ δ, 24 * k + 12.5 ≤ T δ → T δ ≤ 24 * k + 35.5 →
      ∃ r, c.compute δ = .ok r ∧ Real.cos rb.sza ≤ Real.cos r.sza + 5e-18 := by
  have tot : ∀ δ, ∃ r, c.compute δ = .ok r := compute_total c
  choose f hf using tot
  have rate : 0 ≤ 1.67e-6 * Real.cos (q.position.lat * (Real.pi / 180)) - 4.3e-7 := by
    have h1 := cos_75.trans (cos_lat hlat (by norm_num))
    norm_num at h1 ⊢
    linarith
  have rng : ∀ δ, 24 * k - 2 ≤ T δ → T δ ≤ 24 * k + 37 →
      |N - 51544.5 + (3600 * q.time.hour + 60 * q.time.minute + q.time.second + δ) / 86400| ≤ 36524 := by
    intro δ h0 h1
    rw [hT] at h0 h1
    rw [abs_le] at hk ⊢
    norm_num at hk ⊢
    constructor <;> linarith [hk.1, hk.2]
  -- the two halves of a day
  have half : ∀ j : ℤ, j = k ∨ j = k + 1 → ∀ x y, x ≤ y → (24 * k - 2 ≤ T x) → (T y ≤ 24 * k + 37) →
      (24 * j + 0.5 ≤ T x → T y ≤ 24 * j + 11.5 → Real.cos (f x).sza ≤ Real.cos (f y).sza + 2e-18) ∧
      (24 * j + 12.5 ≤ T x → T y ≤ 24 * j + 23.5 → Real.cos (f y).sza ≤ Real.cos (f x).sza + 2e-18) := by
    intro j hj x y hxy t1 t2
    have mono : T x ≤ T y := by rw [hT, hT]; linarith
    obtain ⟨r1, r2, h1, h2, m1, m2⟩ := C96_half_days p q hd c hc x y N hN (rng x t1 (by linarith)) (rng y (by linarith) t2)
      hxy (hlat.trans (by norm_num)) T hT j
    obtain rfl := Except.ok.inj ((hf x).symm.trans h1)
    obtain rfl := Except.ok.inj ((hf y).symm.trans h2)
    have g : 0 ≤ (1.67e-6 * Real.cos (q.position.lat * (Real.pi / 180)) - 4.3e-7) * (y - x) := mul_nonneg rate (by linarith)
    exact ⟨fun h3 h4 => by linarith [m1 h3 h4], fun h3 h4 => by linarith [m2 h3 h4]⟩
  -- an offset with a given local time
  have at_ : ∀ t, ∃ x, T x = t := by
    intro t
    refine ⟨(t - q.position.lon / 15) * 3600 - (3600 * q.time.hour + 60 * q.time.minute + q.time.second), ?_⟩
    rw [hT]; ring
  have inj : ∀ {x y}, T x ≤ T y → x ≤ y := fun {x y} h => by rw [hT, hT] at h; linarith
  -- nearly attained bounds
  have sup : ∀ (g : ℝ → ℝ) (lo hi : ℝ), lo ≤ hi → (∀ x, |g x| ≤ 1) → ∃ a, lo ≤ T a ∧ T a ≤ hi ∧ ∀ x, lo ≤ T x → T x ≤ hi → g x ≤ g a + 1e-18 := by
    intro g lo hi hlh hg
    obtain ⟨x0, hx0⟩ := at_ lo
    have ne : (g '' {x | lo ≤ T x ∧ T x ≤ hi}).Nonempty := ⟨g x0, x0, ⟨by linarith, by linarith⟩, rfl⟩
    have bdd : BddAbove (g '' {x | lo ≤ T x ∧ T x ≤ hi}) := ⟨1, by rintro _ ⟨x, -, rfl⟩; exact (abs_le.mp (hg x)).2⟩
    obtain ⟨_, ⟨a, ⟨a1, a2⟩, rfl⟩, ha⟩ := exists_lt_of_lt_csSup ne (show sSup (g '' {x | lo ≤ T x ∧ T x ≤ hi}) - 1e-18 < _ by norm_num)
    refine ⟨a, a1, a2, fun x h1 h2 => ?_⟩
    have := le_csSup bdd ⟨x, ⟨h1, h2⟩, rfl⟩
    linarith
  constructor
  · obtain ⟨a, a1, a2, ha⟩ := sup (fun x => Real.cos (f x).sza) (24 * k + 11.5) (24 * k + 12.5) (by norm_num) fun x => Real.abs_cos_le_one _
    refine ⟨a, f a, by rw [abs_le]; norm_num at a1 a2 ⊢; constructor <;> linarith, hf a, fun δ h1 h2 => ⟨f δ, hf δ, ?_⟩⟩
    rcases le_total (T δ) (24 * k + 11.5) with h3 | h3
    · obtain ⟨e, he⟩ := at_ (24 * k + 11.5)
      have m := (half k (.inl rfl) δ e (inj (by linarith)) (by norm_num at h1 ⊢; linarith) (by rw [he]; norm_num)).1 h1 he.le
      have m2 := ha e he.ge (by rw [he]; norm_num)
      norm_num at m m2 ⊢
      linarith
    · rcases le_total (T δ) (24 * k + 12.5) with h4 | h4
      · have := ha δ h3 h4
        norm_num at this ⊢
        linarith
      · obtain ⟨e, he⟩ := at_ (24 * k + 12.5)
        have m := (half k (.inl rfl) e δ (inj (by linarith)) (by rw [he]; norm_num; linarith) (by norm_num at h2 ⊢; linarith)).2 he.ge h2
        have m2 := ha e (by rw [he]; norm_num) he.le
        norm_num at m m2 ⊢
        linarith
  · obtain ⟨a, a1, a2, ha⟩ := sup (fun x => -Real.cos (f x).sza) (24 * k + 23.5) (24 * k + 24.5) (by norm_num) fun x => by
      rw [abs_neg]; exact Real.abs_cos_le_one _
    refine ⟨a, f a, by rw [abs_le]; norm_num at a1 a2 ⊢; constructor <;> linarith, hf a, fun δ h1 h2 => ⟨f δ, hf δ, ?_⟩⟩
    rcases le_total (T δ) (24 * k + 23.5) with h3 | h3
    · obtain ⟨e, he⟩ := at_ (24 * k + 23.5)
      have m := (half k (.inl rfl) δ e (inj (by linarith)) (by norm_num at h1 ⊢; linarith) (by rw [he]; norm_num)).2 h1 he.le
      have m2 := ha e he.ge (by rw [he]; norm_num)
      norm_num at m m2 ⊢
      linarith
    · rcases le_total (T δ) (24 * k + 24.5) with h4 | h4
      · have := ha δ h3 h4
        norm_num at this ⊢
        linarith
      · obtain ⟨e, he⟩ := at_ (24 * k + 24.5)
        have m := (half (k + 1) (.inr rfl) e δ (inj (by linarith)) (by rw [he]; norm_num; linarith) (by norm_num at h2 ⊢; linarith)).1
          (by rw [he]; push_cast; norm_num; linarith) (by push_cast; norm_num at h2 ⊢; linarith)
        have m2 := ha e (by rw [he]; norm_num) he.le
        norm_num at m m2 ⊢
        linarith

/-- The default parameters of the program moved to 70 degrees north, for the day itself and the one after it. -/
example : GoodDate (SunAngleParameters.default (α := ℝ)).date ∧ |(70 : ℝ)| ≤ 75 ∧
    ∀ k ∈ [0, 1], |((54195 : ℤ) + (k : ℤ) : ℝ) - 51544 - (SunAngleParameters.default (α := ℝ)).position.lon / 360| ≤ 36522 := by
  refine ⟨⟨by decide, by decide, by decide⟩, by norm_num, ?_⟩
  intro k hk
  fin_cases hk <;> norm_num [SunAngleParameters.default, abs_le]

/-- **C96.** The same in binary64 up to 60 degrees of latitude: for finite parameters within a century of J2000.0 and any
mathematical library accurate to `2^-50`, of two offsets at least a hundredth of a second apart, the later gives the larger
cosine, and the smaller angle whenever both cosines are in the domain of `acos`, between hours 0.5 and 11.5 of a day; and the
other way round between hours 12.5 and 23.5. -/
theorem C96_half_days_f64 [Libm F64] (hL : LibmAcc) (p : Profile) (q : SunAngleParameters F64) (δ δ' : F64) (s l b h d d' : ℚ)
    (N : ℤ) (H : SunInput q δ s l b h d N) (H' : SunInput q δ' s l b h d' N) (hlat : |b| ≤ 60) (hd : d + 1 / 100 ≤ d') (T : ℝ → ℝ)
    (hT : ∀ d, T d = (3600 * q.time.hour + 60 * q.time.minute + s + d) / 3600 + l / 15) (k : ℤ) :
    ∃ (c : SunAngleCalculator F64) (r r' : SunAngleResult F64) (x x' : ℚ), SunAngleCalculator.new p q = .ok c ∧
      c.compute δ = .ok r ∧ c.compute δ' = .ok r' ∧ Is (c.zen.normalize.dot r.sun_e.normalize) x ∧
      Is (c.zen.normalize.dot r'.sun_e.normalize) x' ∧
      (24 * k + 0.5 ≤ T d → T d' ≤ 24 * k + 11.5 →
        x < x' ∧ (|x| ≤ 1 → |x'| ≤ 1 → ∃ z z' : ℚ, Is r.sza z ∧ Is r'.sza z' ∧ z' < z)) ∧
      (24 * k + 12.5 ≤ T d → T d' ≤ 24 * k + 23.5 →
        x' < x ∧ (|x| ≤ 1 → |x'| ≤ 1 → ∃ z z' : ℚ, Is r.sza z ∧ Is r'.sza z' ∧ z < z')) := by
  have gd : GoodDate (exactParams q s l b h).date := H.date
  have cent : ∀ {δ : F64} {d : ℚ}, SunInput q δ s l b h d N →
      |(N : ℝ) - 51544.5 + (3600 * q.time.hour + 60 * q.time.minute + s + d) / 86400| ≤ 36524 := by
    intro δ d H
    have h1 := (Rat.cast_le (K := ℝ)).mpr H.century
    push_cast at h1
    refine le_trans (le_of_eq (congrArg (fun x : ℝ => |x|) ?_)) h1
    norm_num
    ring
  obtain ⟨c, C, r, R, hc, hC, hr, hR, -, -, -, ⟨x, ix, ex⟩, -⟩ := C72_sun_angle_f64 hL p q δ s l b h d N H
  obtain ⟨c', C', r', R', hc', hC', hr', hR', -, -, -, ⟨x', ix', ex'⟩, -⟩ := C72_sun_angle_f64 hL p q δ' s l b h d' N H'
  obtain rfl := Except.ok.inj (hc.symm.trans hc')
  obtain rfl := Except.ok.inj (hC.symm.trans hC')
  have hlat' : |(b : ℝ)| ≤ 60 := by exact_mod_cast hlat
  have hd' : (d : ℝ) + 1 / 100 ≤ d' := by
    have := (Rat.cast_le (K := ℝ)).mpr hd
    push_cast at this
    exact this
  obtain ⟨R1, R2, g1, g2, m1, m2⟩ := C96_half_days p (exactParams q s l b h) gd C hC d d' N H.days (cent H) (cent H') (by linarith)
    (by show |(b : ℝ)| ≤ 90; linarith) T hT k
  obtain rfl := Except.ok.inj (hR.symm.trans g1)
  obtain rfl := Except.ok.inj (hR'.symm.trans g2)
  have gain : 4e-9 ≤ (1.67e-6 * Real.cos ((b : ℝ) * (Real.pi / 180)) - 4.3e-7) * (d' - d) - 2e-18 := by
    have h1 := cos_lat hlat' (by norm_num)
    rw [show (60 : ℝ) * (Real.pi / 180) = Real.pi / 3 by ring, Real.cos_pi_div_three] at h1
    have h2 : 4.05e-7 ≤ 1.67e-6 * Real.cos ((b : ℝ) * (Real.pi / 180)) - 4.3e-7 := by norm_num at h1 ⊢; linarith
    have h3 := mul_le_mul h2 (by linarith : 1 / 100 ≤ (d' : ℝ) - d) (by norm_num) (le_trans (by norm_num) h2)
    norm_num at h3 ⊢
    linarith
  obtain ⟨-, -, -, -, hsz, -⟩ := compute_geometry c δ hr
  obtain ⟨-, -, -, -, hsz', -⟩ := compute_geometry c δ' hr'
  -- angles of cosines
  have ac : ∀ {y y' : ℚ}, |y| ≤ 1 → |y'| ≤ 1 → (y : ℝ) + 1.5e-9 ≤ y' → Real.arccos y' + 1.5e-9 ≤ Real.arccos y := by
    intro y y' h1 h2 hlt
    have h1' : |(y : ℝ)| ≤ 1 := by exact_mod_cast h1
    have h2' : |(y' : ℝ)| ≤ 1 := by exact_mod_cast h2
    have e1 := Real.cos_arccos (abs_le.mp h1').1 (abs_le.mp h1').2
    have e2 := Real.cos_arccos (abs_le.mp h2').1 (abs_le.mp h2').2
    have hle : Real.arccos y' ≤ Real.arccos y := Real.antitone_arccos (by norm_num at hlt; linarith)
    have lip := Real.abs_cos_sub_cos_le (Real.arccos y') (Real.arccos y)
    rw [e1, e2, abs_sub_comm (Real.arccos _), abs_of_nonneg (sub_nonneg.mpr hle)] at lip
    linarith [le_abs_self ((y' : ℝ) - y)]
  rw [abs_le] at ex ex'
  refine ⟨c, r, r', x, x', hc, hr, hr', ix, ix', fun h1 h2 => ?_, fun h1 h2 => ?_⟩
  · have m := gain.trans (m1 h1 h2)
    have gap : (x : ℝ) + 1.5e-9 ≤ x' := by norm_num at ex ex' m ⊢; linarith [ex.2, ex'.1]
    refine ⟨by have : (x : ℝ) < x' := by norm_num at gap; linarith
               exact_mod_cast this, fun k1 k2 => ?_⟩
    obtain ⟨z, iz, ez⟩ : Near r.sza (Real.arccos x) (1 / 2 ^ 50) := by rw [hsz]; exact hL.acos _ x ix k1
    obtain ⟨z', iz', ez'⟩ : Near r'.sza (Real.arccos x') (1 / 2 ^ 50) := by rw [hsz']; exact hL.acos _ x' ix' k2
    refine ⟨z, z', iz, iz', ?_⟩
    have k3 := ac k1 k2 gap
    rw [abs_le] at ez ez'
    have : (z' : ℝ) < z := by norm_num at ez ez' k3; linarith [ez.1, ez'.2]
    exact_mod_cast this
  · have m := gain.trans (m2 h1 h2)
    have gap : (x' : ℝ) + 1.5e-9 ≤ x := by norm_num at ex ex' m ⊢; linarith [ex.1, ex'.2]
    refine ⟨by have : (x' : ℝ) < x := by norm_num at gap; linarith
               exact_mod_cast this, fun k1 k2 => ?_⟩
    obtain ⟨z, iz, ez⟩ : Near r.sza (Real.arccos x) (1 / 2 ^ 50) := by rw [hsz]; exact hL.acos _ x ix k1
    obtain ⟨z', iz', ez'⟩ : Near r'.sza (Real.arccos x') (1 / 2 ^ 50) := by rw [hsz']; exact hL.acos _ x' ix' k2
    refine ⟨z, z', iz, iz', ?_⟩
    have k3 := ac k2 k1 gap
    rw [abs_le] at ez ez'
    have : (z : ℝ) < z' := by norm_num at ez ez' k3; linarith [ez.2, ez'.1]
    exact_mod_cast this

/-- The default parameters of the program one and two hours after noon UT1, between four and six in the morning; a library that
exists. -/
example : ∃ L : Libm F64, @LibmAcc L ∧
    SunInput (SunAngleParameters.default : SunAngleParameters F64) (lit 3600) 0 (-120) 0 0 3600 54195 ∧
    SunInput (SunAngleParameters.default : SunAngleParameters F64) (lit 7200) 0 (-120) 0 0 7200 54195 ∧
    |(0 : ℚ)| ≤ 60 ∧ (3600 : ℚ) + 1 / 100 ≤ 7200 := by
  have i0 : Is (lit 0 : F64) 0 := by have := Is.lit_int 0 (by norm_num); push_cast at this; exact this
  have i1 : Is (lit (-120) : F64) (-120) := by have := Is.lit_int (-120) (by norm_num); push_cast at this; exact this
  have i2 : Is (lit 7200 : F64) 7200 := by have := Is.lit_int 7200 (by norm_num); push_cast at this; exact this
  have i3 : Is (lit 3600 : F64) 3600 := by have := Is.lit_int 3600 (by norm_num); push_cast at this; exact this
  refine ⟨goodLibm, exists_libmAcc, ⟨⟨by decide, by decide, by decide⟩, by decide, by decide, i0, by
    norm_num [SunAngleParameters.default], by norm_num [SunAngleParameters.default], i1, i0, i0, by norm_num, by norm_num, by norm_num, i3, by norm_num,
    daysFrom_epoch (by decide), by norm_num [SunAngleParameters.default]⟩, ⟨⟨by decide, by decide, by decide⟩, by decide, by decide, i0, by
    norm_num [SunAngleParameters.default], by norm_num [SunAngleParameters.default], i1, i0, i0, by norm_num, by norm_num, by norm_num, i2, by norm_num,
    daysFrom_epoch (by decide), by norm_num [SunAngleParameters.default]⟩, by norm_num, by norm_num⟩

end Verif
