import Verif.Lemmas.SunClimb
import Verif.Props.SunRate

/-!
# C91: the Sun climbs all morning and sinks all afternoon; one sunrise and one sunset a day
-/

namespace Verif
open Arith Matrix Spec

/-- From the motion of the Sun vector to that of the cosine of the zenith angle; `e` is 1 or -1. -/
theorem climb_cos {z s s' sm : Fin 3 → ℝ} {D α κ e : ℝ} (hz : len z = 1) (D0 : 0 ≤ D) (D1 : D ≤ 1 / 3)
    (hα : α = Real.pi * 1.00273781191135448 * D) (he : |e| = 1) (κ0 : 0 ≤ κ)
    (hs' : 0.982 ≤ len s') (hs'' : len s' ≤ 1.019) (hl : |len s - len s'| ≤ 0.01753 * D)
    (h : len (s' - s - (2 * Real.sin α) • (KJ *ᵥ sm)) ≤ 0.01819 * D + 1e-18)
    (hP : 0.3759 * κ ≤ e * (z 0 * sm 1 - z 1 * sm 0)) :
    (1.895 * κ - 0.0365) * D - 2e-18 ≤ e * (Real.cos (ang z s') - Real.cos (ang z s)) := by
  have c1 := cos_ang z s
  have c2 := cos_ang z s'
  rw [hz, one_mul] at c1 c2
  have hdot := dot_le z (s' - s - (2 * Real.sin α) • (KJ *ᵥ sm))
  rw [hz, one_mul] at hdot
  have hdot := hdot.trans h
  have k0 : (KJ *ᵥ sm) 0 = sm 1 := by simp [KJ, Matrix.mulVec, dotProduct, Fin.sum_univ_three]
  have k1 : (KJ *ᵥ sm) 1 = -sm 0 := by simp [KJ, Matrix.mulVec, dotProduct, Fin.sum_univ_three]
  have k2 : (KJ *ᵥ sm) 2 = 0 := by simp [KJ, Matrix.mulVec, dotProduct, Fin.sum_univ_three]
  simp only [Pi.sub_apply, Pi.smul_apply, smul_eq_mul, k0, k1, k2] at hdot
  have hσ : 2.57 * D ≤ Real.sin α := by
    have p1 := Real.pi_gt_d6
    have p2 := Real.pi_lt_d6
    have a1 : 3.1501 * D ≤ α := by
      rw [hα]; refine mul_le_mul_of_nonneg_right ?_ D0; norm_num at p1 ⊢; linarith
    have a2 : α ≤ 3.1502 * D := by
      rw [hα]; refine mul_le_mul_of_nonneg_right ?_ D0; norm_num at p2 ⊢; linarith
    rcases D0.eq_or_lt with h0 | h0
    · rw [← h0]
      have : α = 0 := by rw [hα, ← h0]; ring
      rw [this]; simp
    have a0 : 0 < α := lt_of_lt_of_le (by positivity) a1
    have := Real.sin_gt_sub_cube a0
    have a3 : α ≤ 1.0501 := by norm_num at a2 ⊢; linarith
    have a4 : α ^ 2 ≤ 1.0501 ^ 2 := pow_le_pow_left₀ a0.le a3 2
    have a5 : α ^ 3 / 6 ≤ 0.1838 * α := by
      have := mul_le_mul_of_nonneg_right a4 a0.le
      rw [show α ^ 3 = α ^ 2 * α by ring]
      norm_num at this ⊢; linarith
    norm_num at a1 a5 this ⊢
    linarith
  have e2 : e = 1 ∨ e = -1 := by
    rcases le_total 0 e with h0 | h0
    · left; rwa [abs_of_nonneg h0] at he
    · right; rw [abs_of_nonpos h0] at he; linarith
  have hb : |z 0 * s' 0 + z 1 * s' 1 + z 2 * s' 2 - (z 0 * s 0 + z 1 * s 1 + z 2 * s 2) -
      2 * Real.sin α * (z 0 * sm 1 - z 1 * sm 0)| ≤ 0.01819 * D + 1e-18 := by
    refine le_trans (le_of_eq (congrArg (fun x : ℝ => |x|) ?_)) hdot
    ring
  rw [← c1, ← c2] at hb
  have ca := abs_le.mp (Real.abs_cos_le_one (ang z s))
  generalize Real.sin α = σ at *
  generalize z 0 * sm 1 - z 1 * sm 0 = P at *
  generalize Real.cos (ang z s) = C at *
  generalize Real.cos (ang z s') = C' at *
  generalize len s = d at *
  generalize len s' = d' at *
  clear hdot c1 c2 k0 k1 k2 h hα hz
  have hσP : 1.932 * (κ * D) ≤ 2 * σ * (e * P) := by
    have := mul_le_mul hσ hP (by positivity) (le_trans (by positivity) hσ)
    have kd : 0 ≤ κ * D := by positivity
    norm_num at this ⊢
    linarith
  have hCd : |C * (d - d')| ≤ 0.01753 * D := by
    rw [abs_mul]
    exact (mul_le_of_le_one_left (abs_nonneg _) (abs_le.mpr ca)).trans hl
  have hY : 1.932 * (κ * D) - 0.03572 * D - 1e-18 ≤ e * (C' - C) * d' := by
    have b1 := abs_le.mp hb
    have b2 := abs_le.mp hCd
    rcases e2 with rfl | rfl
    · norm_num at *; linarith
    · norm_num at *; linarith
  have hZ : ((1.895 * κ - 0.0365) * D - 2e-18) * d' ≤ 1.932 * (κ * D) - 0.03572 * D - 1e-18 := by
    have kd : 0 ≤ κ * D := by positivity
    have m1 := mul_le_mul_of_nonneg_left hs'' kd
    have m2 := mul_le_mul_of_nonneg_left hs' D0
    norm_num at m1 m2 hs' ⊢
    linarith
  by_contra hlt
  push Not at hlt
  have := mul_lt_mul_of_pos_right hlt (show 0 < d' by linarith)
  linarith

/-- The mean Sun moves upwards around six in the morning and downwards around six in the evening. -/
theorem mean_climb {lon n sec T : ℝ} {N k : ℤ} (hn : n = N - 51544.5 + sec / 86400) (hb : |n| ≤ 36525)
    (hT : T = sec / 3600 + lon / 15) :
    (|T - 6 - 24 * k| ≤ 4 → 0.3775 ≤ Real.cos (lon * (Real.pi / 180)) * meanSun n 1 - Real.sin (lon * (Real.pi / 180)) * meanSun n 0) ∧
    (|T - 18 - 24 * k| ≤ 4 → 0.3775 ≤ Real.sin (lon * (Real.pi / 180)) * meanSun n 0 - Real.cos (lon * (Real.pi / 180)) * meanSun n 1) := by
  have hpi := Real.pi_pos
  have hour : ∀ t : ℝ, |t| ≤ 4 → 0.5 ≤ Real.cos (Real.pi / 12 * t) := by
    intro t ht
    have : Real.cos (Real.pi / 3) ≤ Real.cos (Real.pi / 12 * t) := by
      rw [← Real.cos_abs (Real.pi / 12 * t)]
      apply Real.cos_le_cos_of_nonneg_of_le_pi (abs_nonneg _) (by linarith)
      rw [abs_mul, abs_of_pos (by positivity : 0 < Real.pi / 12)]
      nlinarith
    rw [Real.cos_pi_div_three] at this
    norm_num at this ⊢; linarith
  constructor <;> intro hk <;> have c1 := hour _ hk
  · have m := meridian (lam := lon * (Real.pi / 180) + Real.pi / 2) (h := Real.pi / 12 * (T - 6 - 24 * k)) hb
      ⟨N - 51544 + k, by rw [hn, hT]; push_cast; ring⟩ (by linarith)
    have s1 := Real.abs_sin_le_one (Real.pi / 12 * (T - 6 - 24 * k))
    rw [Real.cos_add_pi_div_two, Real.sin_add_pi_div_two] at m
    norm_num at m c1 ⊢
    linarith
  · have m := meridian (lam := lon * (Real.pi / 180) - Real.pi / 2) (h := Real.pi / 12 * (T - 18 - 24 * k)) hb
      ⟨N - 51544 + k, by rw [hn, hT]; push_cast; ring⟩ (by linarith)
    have s1 := Real.abs_sin_le_one (Real.pi / 12 * (T - 18 - 24 * k))
    rw [Real.cos_sub_pi_div_two, Real.sin_sub_pi_div_two] at m
    norm_num at m c1 ⊢
    linarith

/-- **C91.** The Sun climbs from 2 to 10 o'clock and sinks from 14 to 22 o'clock, every day, at every place.  For one
calculator in exact arithmetic, two offsets both within 36524 days of 2000-01-01 12:00 UTC, and any day `k` of local mean
solar time `T`: if both are between hours 2 and 10 the cosine of the zenith angle grows by at least
`2.19e-5 cos(latitude) - 4.3e-7` per second, and between hours 14 and 22 it falls by at least that, up to `2e-18`. -/
theorem C91_morning_and_afternoon (p : Profile) (q : SunAngleParameters ℝ) (hd : GoodDate q.date) (c : SunAngleCalculator ℝ)
    (hc : SunAngleCalculator.new p q = .ok c) (δ δ' : ℝ) (N : ℤ) (hN : DaysFrom mjdEpoch q.date.civil N)
    (hb : |N - 51544.5 + (3600 * q.time.hour + 60 * q.time.minute + q.time.second + δ) / 86400| ≤ 36524)
    (hb' : |N - 51544.5 + (3600 * q.time.hour + 60 * q.time.minute + q.time.second + δ') / 86400| ≤ 36524)
    (hle : δ ≤ δ') (hlat : |q.position.lat| ≤ 90) (T : ℝ → ℝ)
    (hT : ∀ δ, T δ = (3600 * q.time.hour + 60 * q.time.minute + q.time.second + δ) / 3600 + q.position.lon / 15) (k : ℤ) :
    ∃ r r', c.compute δ = .ok r ∧ c.compute δ' = .ok r' ∧
      (24 * k + 2 ≤ T δ → T δ' ≤ 24 * k + 10 →
        (2.19e-5 * Real.cos (q.position.lat * (Real.pi / 180)) - 4.3e-7) * (δ' - δ) - 2e-18 ≤ Real.cos r'.sza - Real.cos r.sza) ∧
      (24 * k + 14 ≤ T δ → T δ' ≤ 24 * k + 22 →
        (2.19e-5 * Real.cos (q.position.lat * (Real.pi / 180)) - 4.3e-7) * (δ' - δ) - 2e-18 ≤ Real.cos r.sza - Real.cos r'.sza) := by
  have hbm : |N - 51544.5 + (3600 * q.time.hour + 60 * q.time.minute + q.time.second + (δ + δ') / 2) / 86400| ≤ 36524 := by
    rw [abs_le] at hb hb' ⊢
    constructor <;> linarith [hb.1, hb.2, hb'.1, hb'.2]
  obtain ⟨r, hr, htt, hut, hd0, hd1, -, b0, hz⟩ := sun_at p q hd c hc N hN δ hb
  obtain ⟨r', hr', htt', hut', hd0', hd1', -, b0', hz'⟩ := sun_at p q hd c hc N hN δ' hb'
  obtain ⟨rm, -, httm, hutm, hd0m, hd1m, hdat, b0m, -⟩ := sun_at p q hd c hc N hN _ hbm
  have same : ∀ {r r' : SunAngleResult ℝ}, (q.date.year < 1960 → r.dat = 0) →
      (1960 ≤ q.date.year → deltaAt p q.date ((3600 * q.time.hour + 60 * q.time.minute + q.time.second) / 86400) = .ok (.ok (some r.dat))) →
      (q.date.year < 1960 → r'.dat = 0) →
      (1960 ≤ q.date.year → deltaAt p q.date ((3600 * q.time.hour + 60 * q.time.minute + q.time.second) / 86400) = .ok (.ok (some r'.dat))) →
      r.dat = r'.dat := by
    intro r r' h0 h1 h0' h1'
    by_cases hy : q.date.year < 1960
    · rw [h0 hy, h0' hy]
    · have k := (h1 (by omega)).symm.trans (h1' (by omega))
      simpa using k
  have q1 := same hd0 hd1 hd0m hd1m
  have q2 := same hd0' hd1' hd0m hd1m
  refine ⟨r, r', hr, hr', ?_⟩
  set n : ℝ := N - 51544.5 + (3600 * q.time.hour + 60 * q.time.minute + q.time.second + (δ + δ') / 2) / 86400 with hn
  have D0 : 0 ≤ (δ' - δ) / 86400 := by apply div_nonneg <;> linarith
  have hv := climb_vec (u := r.ut1.1) (v := r.ut1.2) (u' := r'.ut1.1) (v' := r'.ut1.2) (um := rm.ut1.1) (vm := rm.ut1.2)
    (D := (δ' - δ) / 86400) b0 b0' b0m D0 (by rw [htt, httm, q1]; ring) (by rw [htt', httm, q2]; ring)
    (by rw [hut, hutm]; ring) (by rw [hut', hutm]; ring) rfl rfl rfl
  have near := sun_near (n := n) b0m (by
    rw [httm, show 2400000.5 + N + (3600 * q.time.hour + 60 * q.time.minute + q.time.second + (δ + δ') / 2) / 86400 + (rm.dat + 32.184) / 86400 -
      2451545 - n = (rm.dat + 32.184) / 86400 by rw [hn]; norm_num; ring]
    rw [abs_le] at hdat ⊢
    constructor <;> norm_num <;> linarith [hdat.1, hdat.2]) (by
    rw [hutm, show 2400000.5 + N + (3600 * q.time.hour + 60 * q.time.minute + q.time.second + (δ + δ') / 2) / 86400 - 0.072073685 / 86400 -
      2451545 - n = -0.072073685 / 86400 by rw [hn]; norm_num; ring]
    norm_num [abs_of_neg])
  have lens : ∀ {tt ut : ℝ × ℝ}, |tt.1 + tt.2 - 2451545| ≤ 36525 →
      len ((celestialToTerrestrial tt ut (0.0349282 * AS2R) (0.4833163 * AS2R)).toMatrix *ᵥ (-(earthAt (tt.1 + tt.2)).heliocentric.p.toVec)) =
        len (-(earthAt (tt.1 + tt.2)).heliocentric.p.toVec) := fun {tt ut} h =>
    len_mulVec (mul_eq_one_comm.mp ((isRotation_iff _).mp (C38_celestial_to_terrestrial tt ut _ _)).1) _
  have l1 := lens (ut := r.ut1) b0
  have l1' := lens (ut := r'.ut1) b0'
  obtain ⟨e1, e2⟩ := earth_len b0'
  rw [← l1'] at e1 e2
  have el : |len (-(earthAt (r.tt.1 + r.tt.2)).heliocentric.p.toVec) - len (-(earthAt (r'.tt.1 + r'.tt.2)).heliocentric.p.toVec)| ≤
      0.01753 * ((δ' - δ) / 86400) := by
    have h1 := earth_lip b0 b0'
    have ln : ∀ x : Fin 3 → ℝ, len (-x) = len x := fun x => by unfold len; simp
    rw [ln, ln]
    have a1 := len_add ((earthAt (r.tt.1 + r.tt.2)).heliocentric.p.toVec - (earthAt (r'.tt.1 + r'.tt.2)).heliocentric.p.toVec) (earthAt (r'.tt.1 + r'.tt.2)).heliocentric.p.toVec
    have a2 := len_sub (earthAt (r.tt.1 + r.tt.2)).heliocentric.p.toVec ((earthAt (r.tt.1 + r.tt.2)).heliocentric.p.toVec - (earthAt (r'.tt.1 + r'.tt.2)).heliocentric.p.toVec)
    rw [sub_add_cancel] at a1
    rw [sub_sub_cancel] at a2
    have e : |r.tt.1 + r.tt.2 - (r'.tt.1 + r'.tt.2)| = (δ' - δ) / 86400 := by
      rw [htt, htt', q1, q2, abs_sub_comm]
      rw [← abs_of_nonneg D0]
      ring_nf
    rw [e] at h1
    rw [abs_le]; constructor <;> linarith
  rw [← l1, ← l1'] at el
  have κ0 : 0 ≤ Real.cos (q.position.lat * (Real.pi / 180)) := by
    have hpi := Real.pi_pos
    have hl := abs_le.mp hlat
    have a1 := mul_le_mul_of_nonneg_right hl.1 hpi.le
    have a2 := mul_le_mul_of_nonneg_right hl.2 hpi.le
    clear * - a1 a2
    apply Real.cos_nonneg_of_neg_pi_div_two_le_of_le <;> linarith
  have D1 : ∀ x : ℝ, 24 * k + x ≤ T δ → T δ' ≤ 24 * k + (x + 8) → (δ' - δ) / 86400 ≤ 1 / 3 := by
    intro x h1 h2
    rw [hT] at h1 h2
    linarith
  have mid : T ((δ + δ') / 2) = (T δ + T δ') / 2 := by rw [hT, hT, hT]; ring
  have mono : T δ ≤ T δ' := by rw [hT, hT]; linarith
  obtain ⟨m1, m2⟩ := mean_climb (lon := q.position.lon) (k := k) hn (hbm.trans (by norm_num)) (hT ((δ + δ') / 2))
  rw [mid] at m1 m2
  rw [hz, hz']
  have hdist := dot_le ![-Real.sin (q.position.lon * (Real.pi / 180)), Real.cos (q.position.lon * (Real.pi / 180)), 0]
    ((celestialToTerrestrial (rm.tt.1, rm.tt.2) (rm.ut1.1, rm.ut1.2) (0.0349282 * AS2R) (0.4833163 * AS2R)).toMatrix *ᵥ
      (-(earthAt (rm.tt.1 + rm.tt.2)).heliocentric.p.toVec) - meanSun n)
  have hu : len ![-Real.sin (q.position.lon * (Real.pi / 180)), Real.cos (q.position.lon * (Real.pi / 180)), 0] = 1 := by
    unfold len
    rw [Real.sqrt_eq_one]
    simp
  rw [hu, one_mul] at hdist
  have hdist := hdist.trans near
  have v0 : upward q.position.lon q.position.lat 0 = Real.cos (q.position.lat * (Real.pi / 180)) * Real.cos (q.position.lon * (Real.pi / 180)) := rfl
  have v1 : upward q.position.lon q.position.lat 1 = Real.cos (q.position.lat * (Real.pi / 180)) * Real.sin (q.position.lon * (Real.pi / 180)) := rfl
  have uz := upward_len q.position.lon q.position.lat
  clear near lens hz hz' htt htt' httm hut hut' hutm hd0 hd0' hd0m hd1 hd1' hd1m same q1 q2 hdat l1 l1' hu hb hb' hbm
  clear_value n
  change len (_ - _ - _ • (_ *ᵥ ((celestialToTerrestrial (rm.tt.1, rm.tt.2) (rm.ut1.1, rm.ut1.2) (0.0349282 * AS2R) (0.4833163 * AS2R)).toMatrix *ᵥ
      (-(earthAt (rm.tt.1 + rm.tt.2)).heliocentric.p.toVec)))) ≤ _ at hv
  generalize (celestialToTerrestrial (rm.tt.1, rm.tt.2) (rm.ut1.1, rm.ut1.2) (0.0349282 * AS2R) (0.4833163 * AS2R)).toMatrix *ᵥ
      (-(earthAt (rm.tt.1 + rm.tt.2)).heliocentric.p.toVec) = sm at *
  simp only [Pi.sub_apply, Matrix.cons_val_zero, Matrix.cons_val_one, Matrix.cons_val] at hdist
  generalize Real.cos (q.position.lat * (Real.pi / 180)) = κ at *
  generalize Real.cos (q.position.lon * (Real.pi / 180)) = cl at *
  generalize Real.sin (q.position.lon * (Real.pi / 180)) = sl at *
  have fin : ∀ {x : ℝ}, (1.895 * κ - 0.0365) * ((δ' - δ) / 86400) - 2e-18 ≤ x → (2.19e-5 * κ - 4.3e-7) * (δ' - δ) - 2e-18 ≤ x := by
    intro x hx
    refine le_trans ?_ hx
    have : 0 ≤ κ * (δ' - δ) := mul_nonneg κ0 (by linarith)
    norm_num
    linarith
  have bd := abs_le.mp hdist
  refine ⟨fun h1 h2 => fin ?_, fun h1 h2 => fin ?_⟩
  · have m := m1 (by rw [abs_le]; constructor <;> linarith)
    have hP : 0.3759 * κ ≤ 1 * (upward q.position.lon q.position.lat 0 * sm 1 - upward q.position.lon q.position.lat 1 * sm 0) := by
      rw [v0, v1, show 1 * (κ * cl * sm 1 - κ * sl * sm 0) = (cl * sm 1 - sl * sm 0) * κ by ring]
      refine mul_le_mul_of_nonneg_right ?_ κ0
      norm_num at *; linarith [bd.1]
    have := climb_cos uz D0 (D1 2 h1 (by linarith)) rfl (by norm_num) κ0 e1 e2 el hv hP
    rw [one_mul] at this
    exact this
  · have m := m2 (by rw [abs_le]; constructor <;> linarith)
    have hP : 0.3759 * κ ≤ (-1) * (upward q.position.lon q.position.lat 0 * sm 1 - upward q.position.lon q.position.lat 1 * sm 0) := by
      rw [v0, v1, show (-1) * (κ * cl * sm 1 - κ * sl * sm 0) = (sl * sm 0 - cl * sm 1) * κ by ring]
      refine mul_le_mul_of_nonneg_right ?_ κ0
      norm_num at *; linarith [bd.2]
    have := climb_cos uz D0 (D1 14 h1 (by linarith)) rfl (by norm_num) κ0 e1 e2 el hv hP
    rw [neg_one_mul, neg_sub] at this
    exact this

/-- Two offsets of the default parameters between hours 2 and 10 of a day. -/
example : GoodDate (SunAngleParameters.default (α := ℝ)).date ∧ |(SunAngleParameters.default (α := ℝ)).position.lat| ≤ 90 ∧
    (24 * ((0 : ℤ) : ℝ) + 2 ≤ (12 * 3600 + 0 : ℝ) / 3600 + (SunAngleParameters.default (α := ℝ)).position.lon / 15) ∧
    ((12 * 3600 + 7200 : ℝ) / 3600 + (SunAngleParameters.default (α := ℝ)).position.lon / 15 ≤ 24 * ((0 : ℤ) : ℝ) + 10) := by
  refine ⟨⟨by decide, by decide, by decide⟩, ?_, ?_, ?_⟩ <;> norm_num [SunAngleParameters.default, abs_le]

/-- **C91.** One sunrise and one sunset every day.  Up to 60 degrees of latitude, for every day `k` of local mean solar
time there are offsets `a`, between hours 2 and 10, and `b`, between hours 14 and 22, such that over the 28 hours from two
hours before the midnight that begins the day to two hours after the one that ends it, in exact arithmetic: at least `ε`
seconds after `a` and before `b` the Sun is above the horizon and the cosine of its zenith angle is at least `1e-5 ε`, and
at least `ε` seconds before `a` or after `b` it is below and the cosine at most `-1e-5 ε`, for every `ε` between `1e-11`
and 1. -/
theorem C91_one_sunrise_one_sunset (p : Profile) (q : SunAngleParameters ℝ) (hd : GoodDate q.date) (c : SunAngleCalculator ℝ)
    (hc : SunAngleCalculator.new p q = .ok c) (N : ℤ) (hN : DaysFrom mjdEpoch q.date.civil N) (hlat : |q.position.lat| ≤ 60)
    (T : ℝ → ℝ) (hT : ∀ δ, T δ = (3600 * q.time.hour + 60 * q.time.minute + q.time.second + δ) / 3600 + q.position.lon / 15)
    (k : ℤ) (hk : |(N + k : ℝ) - 51544 - q.position.lon / 360| ≤ 36523) :
    ∃ a b : ℝ, 24 * k + 2 ≤ T a ∧ T a ≤ 24 * k + 10 ∧ 24 * k + 14 ≤ T b ∧ T b ≤ 24 * k + 22 ∧
      ∀ ε δ : ℝ, 1e-11 ≤ ε → ε ≤ 1 → 24 * k - 2 ≤ T δ → T δ ≤ 24 * k + 26 →
        ∃ r, c.compute δ = .ok r ∧
          (a + ε ≤ δ → δ ≤ b - ε → 1e-5 * ε ≤ Real.cos r.sza ∧ r.sza < Real.pi / 2) ∧
          (δ ≤ a - ε ∨ b + ε ≤ δ → Real.cos r.sza ≤ -(1e-5 * ε) ∧ Real.pi / 2 < r.sza) := by
  obtain ⟨⟨a, ra, a1, a2, ca, za⟩, ⟨b, rb, b1, b2, cb, zb⟩⟩ := C90_sunrise_and_sunset p q hd c hc N hN hlat T hT k hk
  refine ⟨a, b, a1, a2, b1, b2, fun ε δ e1 e2 t1 t2 => ?_⟩
  have rng : ∀ δ, 24 * k - 2 ≤ T δ → T δ ≤ 24 * k + 26 →
      |N - 51544.5 + (3600 * q.time.hour + 60 * q.time.minute + q.time.second + δ) / 86400| ≤ 36524 := by
    intro δ h0 h1
    rw [hT] at h0 h1
    rw [abs_le] at hk ⊢
    norm_num at hk ⊢
    constructor <;> linarith [hk.1, hk.2]
  have flat : ∀ {x : ℝ}, |x - Real.pi / 2| ≤ 2e-18 → |Real.cos x| ≤ 2e-18 := by
    intro x hx
    rw [show x = Real.pi / 2 - (Real.pi / 2 - x) by ring, Real.cos_pi_div_two_sub]
    exact (Real.abs_sin_le_abs).trans (by rw [abs_sub_comm]; exact hx)
  have za := flat za
  have zb := flat zb
  obtain ⟨r, hr, up, dn⟩ := C83_above_below p q hd c hc δ N hN _ rfl (rng δ t1 t2)
  obtain ⟨n1, n2⟩ := noon_midnight (lon := q.position.lon) (lat := q.position.lat) rfl (rng δ t1 t2) hlat (hT δ)
  obtain ⟨r', hr', -, -, -, z0, z1, -⟩ := C53_sun_zenith_angle p q hd c hc δ
  obtain rfl := Except.ok.inj (hr.symm.trans hr')
  have rate : 1.052e-5 ≤ 2.19e-5 * Real.cos (q.position.lat * (Real.pi / 180)) - 4.3e-7 := by
    have : 1 / 2 ≤ Real.cos (q.position.lat * (Real.pi / 180)) := by
      have hpi := Real.pi_pos
      rw [← Real.cos_pi_div_three, ← Real.cos_abs (q.position.lat * _)]
      refine Real.cos_le_cos_of_nonneg_of_le_pi (abs_nonneg _) (by linarith) ?_
      rw [abs_mul, abs_of_pos (by positivity : 0 < Real.pi / 180)]
      have := mul_le_mul_of_nonneg_right hlat (by positivity : 0 ≤ Real.pi / 180)
      linarith
    norm_num
    linarith
  have climb : ∀ {x y : ℝ} {rx ry : SunAngleResult ℝ}, x + ε ≤ y → c.compute x = .ok rx → c.compute y = .ok ry →
      24 * k - 2 ≤ T x → T y ≤ 24 * k + 26 →
      (24 * k + 2 ≤ T x → T y ≤ 24 * k + 10 → 1e-5 * ε + 2e-18 ≤ Real.cos ry.sza - Real.cos rx.sza) ∧
      (24 * k + 14 ≤ T x → T y ≤ 24 * k + 22 → 1e-5 * ε + 2e-18 ≤ Real.cos rx.sza - Real.cos ry.sza) := by
    intro x y rx ry hxy hx hy t1 t2
    have e0 : 0 < ε := lt_of_lt_of_le (by norm_num) e1
    have mono : T x ≤ T y := by rw [hT, hT]; linarith
    obtain ⟨r1, r2, h1, h2, m1, m2⟩ := C91_morning_and_afternoon p q hd c hc x y N hN (rng x t1 (by linarith)) (rng y (by linarith) t2)
      (by linarith) (hlat.trans (by norm_num)) T hT k
    obtain rfl := Except.ok.inj (hx.symm.trans h1)
    obtain rfl := Except.ok.inj (hy.symm.trans h2)
    have g : 1e-5 * ε + 2e-18 ≤ (2.19e-5 * Real.cos (q.position.lat * (Real.pi / 180)) - 4.3e-7) * (y - x) - 2e-18 := by
      have k1 := mul_le_mul rate (by linarith : ε ≤ y - x) e0.le (le_trans (by norm_num) rate)
      refine le_trans ?_ (sub_le_sub_right k1 _)
      norm_num at e1 ⊢
      linarith
    exact ⟨fun h3 h4 => g.trans (m1 h3 h4), fun h3 h4 => g.trans (m2 h3 h4)⟩
  have e0 : 0 < ε := lt_of_lt_of_le (by norm_num) e1
  have hpi := Real.pi_pos
  have above : 1e-5 * ε ≤ Real.cos r.sza → 1e-5 * ε ≤ Real.cos r.sza ∧ r.sza < Real.pi / 2 := by
    intro h
    refine ⟨h, ?_⟩
    by_contra hn
    push Not at hn
    have := Real.cos_nonpos_of_pi_div_two_le_of_le hn (by linarith)
    have : 0 < 1e-5 * ε := mul_pos (by norm_num) e0
    linarith
  have below : Real.cos r.sza ≤ -(1e-5 * ε) → Real.cos r.sza ≤ -(1e-5 * ε) ∧ Real.pi / 2 < r.sza := by
    intro h
    refine ⟨h, ?_⟩
    by_contra hn
    push Not at hn
    have := Real.cos_nonneg_of_neg_pi_div_two_le_of_le (by linarith) hn
    have : 0 < 1e-5 * ε := mul_pos (by norm_num) e0
    linarith
  have mono : ∀ {s t : ℝ}, s ≤ t → T s ≤ T t := fun h => by rw [hT, hT]; linarith
  have cap : 1e-5 * ε ≤ 0.00004 := by norm_num; linarith
  rw [abs_le] at za zb
  refine ⟨r, hr, fun h1 h2 => above ?_, fun h => below ?_⟩
  · rcases le_total (T δ) (24 * k + 10) with h3 | h3
    · linarith [(climb h1 ca hr (by linarith) t2).1 a1 h3, za.1]
    · rcases le_total (T δ) (24 * k + 14) with h4 | h4
      · exact cap.trans (up (n1 ⟨k, by rw [abs_le]; constructor <;> linarith⟩)).2
      · linarith [(climb (by linarith) hr cb t1 (by linarith)).2 h4 b2, zb.1]
  · rcases h with h | h
    · rcases le_total (T δ) (24 * k + 2) with h3 | h3
      · linarith [(dn (n2 ⟨k, by rw [abs_le]; constructor <;> linarith⟩)).2]
      · linarith [(climb (by linarith) hr ca t1 (by linarith)).1 h3 a2, za.2]
    · rcases le_total (T δ) (24 * k + 22) with h3 | h3
      · linarith [(climb h cb hr (by linarith) t2).2 b1 h3, zb.2]
      · linarith [(dn (n2 ⟨k + 1, by push_cast; rw [abs_le]; constructor <;> linarith⟩)).2]

/-- The default parameters of the program, for the day itself and the three after it. -/
example : GoodDate (SunAngleParameters.default (α := ℝ)).date ∧ |(SunAngleParameters.default (α := ℝ)).position.lat| ≤ 60 ∧
    ∀ k ∈ [0, 1, 2, 3], |((54195 : ℤ) + (k : ℤ) : ℝ) - 51544 - (SunAngleParameters.default (α := ℝ)).position.lon / 360| ≤ 36523 := by
  refine ⟨⟨by decide, by decide, by decide⟩, ?_, ?_⟩
  · norm_num [SunAngleParameters.default]
  · intro k hk
    fin_cases hk <;> norm_num [SunAngleParameters.default, abs_le]

/-- **C91.** Sunrise and sunset in binary64: for finite parameters within a century of J2000.0, up to 60 degrees of latitude
and any mathematical library accurate to `2^-50`, there are instants `a` and `e`, the same for all offsets of a day, such
that at every offset later than `a` and earlier than `e` by at least 0.13 milliseconds the cosine handed to `acos` is
positive and the angle below a right angle, and at every offset before `a` or after `e` by at least 0.13 milliseconds the
cosine is negative and the angle above a right angle. -/
theorem C91_one_sunrise_one_sunset_f64 [Libm F64] (hL : LibmAcc) (p : Profile) (q : SunAngleParameters F64) (δ₀ : F64)
    (s l b h d₀ : ℚ) (N : ℤ) (H₀ : SunInput q δ₀ s l b h d₀ N) (hlat : |b| ≤ 60) (T : ℝ → ℝ)
    (hT : ∀ d, T d = (3600 * q.time.hour + 60 * q.time.minute + s + d) / 3600 + l / 15) (k : ℤ)
    (hk : |(N + k : ℝ) - 51544 - l / 360| ≤ 36523) :
    ∃ (c : SunAngleCalculator F64) (a e : ℝ), SunAngleCalculator.new p q = .ok c ∧
      24 * k + 2 ≤ T a ∧ T a ≤ 24 * k + 10 ∧ 24 * k + 14 ≤ T e ∧ T e ≤ 24 * k + 22 ∧
      ∀ (δ : F64) (d : ℚ), SunInput q δ s l b h d N → 24 * k - 2 ≤ T d → T d ≤ 24 * k + 26 →
        ∃ (r : SunAngleResult F64) (x : ℚ), c.compute δ = .ok r ∧ Is (c.zen.normalize.dot r.sun_e.normalize) x ∧
          (a + 1.3e-4 ≤ d → d ≤ e - 1.3e-4 → 0 < x ∧ (x ≤ 1 → ∃ z : ℚ, Is r.sza z ∧ (z : ℝ) < Real.pi / 2)) ∧
          (d ≤ a - 1.3e-4 ∨ e + 1.3e-4 ≤ d → x < 0 ∧ (-1 ≤ x → ∃ z : ℚ, Is r.sza z ∧ Real.pi / 2 < z)) := by
  have gd : GoodDate (exactParams q s l b h).date := H₀.date
  obtain ⟨c, C, -, -, hc, hC, -⟩ := C72_sun_angle_f64 hL p q δ₀ s l b h d₀ N H₀
  obtain ⟨a, e, a1, a2, e1, e2, key⟩ := C91_one_sunrise_one_sunset p (exactParams q s l b h) gd C hC N H₀.days
    (by show |(b : ℝ)| ≤ 60; exact_mod_cast hlat) T hT k hk
  refine ⟨c, a, e, hc, a1, a2, e1, e2, fun δ d H t1 t2 => ?_⟩
  obtain ⟨c', C', r, R, hc', hC', hr, hR, -, -, -, ⟨x, ix, ex⟩, -⟩ := C72_sun_angle_f64 hL p q δ s l b h d N H
  obtain rfl := Except.ok.inj (hc.symm.trans hc')
  obtain rfl := Except.ok.inj (hC.symm.trans hC')
  obtain ⟨R', hR', up, dn⟩ := key 1.3e-4 d (by norm_num) (by norm_num) t1 t2
  obtain rfl := Except.ok.inj (hR.symm.trans hR')
  obtain ⟨-, -, -, -, hsz, -⟩ := compute_geometry c δ hr
  refine ⟨r, x, hr, ix, fun h1 h2 => ?_, fun h1 => ?_⟩
  · obtain ⟨u, -⟩ := up h1 h2
    rw [abs_le] at ex
    norm_num at ex u
    have x0 : (5e-11 : ℝ) < x := by norm_num; linarith [ex.1]
    have xp : 0 < x := by
      have : (0 : ℝ) < x := by linarith [show (0 : ℝ) < 5e-11 by norm_num]
      exact_mod_cast this
    refine ⟨xp, fun x1 => ?_⟩
    obtain ⟨z, iz, ez⟩ : Near r.sza (Real.arccos x) (1 / 2 ^ 50) := by
      rw [hsz]; exact hL.acos _ x ix (by rw [abs_le]; constructor <;> linarith)
    refine ⟨z, iz, ?_⟩
    have a1 : (x : ℝ) ≤ Real.arcsin x := by
      have h1 : (x : ℝ) ≤ 1 := by exact_mod_cast x1
      have := Real.sin_le (Real.arcsin_nonneg.mpr (by linarith : (0 : ℝ) ≤ x))
      rwa [Real.sin_arcsin (by linarith) h1] at this
    rw [Real.arccos, abs_le] at ez
    norm_num at ez x0
    linarith [ez.2]
  · obtain ⟨u, -⟩ := dn h1
    rw [abs_le] at ex
    norm_num at ex u
    have x0 : (x : ℝ) < -5e-11 := by norm_num; linarith [ex.2]
    have xp : x < 0 := by
      have : (x : ℝ) < 0 := by linarith [show (0 : ℝ) < 5e-11 by norm_num]
      exact_mod_cast this
    refine ⟨xp, fun x1 => ?_⟩
    obtain ⟨z, iz, ez⟩ : Near r.sza (Real.arccos x) (1 / 2 ^ 50) := by
      rw [hsz]; exact hL.acos _ x ix (by rw [abs_le]; constructor <;> linarith)
    refine ⟨z, iz, ?_⟩
    have a1 : Real.arcsin x ≤ x := by
      have h1 : (-1 : ℝ) ≤ x := by exact_mod_cast x1
      have := Real.sin_le (x := -Real.arcsin x) (by rw [← Real.arcsin_neg]; exact Real.arcsin_nonneg.mpr (by linarith))
      rw [Real.sin_neg, Real.sin_arcsin h1 (by linarith)] at this
      linarith
    rw [Real.arccos, abs_le] at ez
    norm_num at ez x0
    linarith [ez.1]

/-- The default parameters of the program two hours after noon UT1, that is at six in the morning; a library that exists. -/
example : ∃ L : Libm F64, @LibmAcc L ∧
    SunInput (SunAngleParameters.default : SunAngleParameters F64) (lit 7200) 0 (-120) 0 0 7200 54195 ∧ |(0 : ℚ)| ≤ 60 ∧
    |((54195 : ℤ) + (0 : ℤ) : ℝ) - 51544 - ((-120 : ℚ) : ℝ) / 360| ≤ 36523 := by
  have i0 : Is (lit 0 : F64) 0 := by have := Is.lit_int 0 (by norm_num); push_cast at this; exact this
  have i1 : Is (lit (-120) : F64) (-120) := by have := Is.lit_int (-120) (by norm_num); push_cast at this; exact this
  have i2 : Is (lit 7200 : F64) 7200 := by have := Is.lit_int 7200 (by norm_num); push_cast at this; exact this
  refine ⟨goodLibm, exists_libmAcc, ⟨⟨by decide, by decide, by decide⟩, by decide, by decide, i0, by
    norm_num [SunAngleParameters.default], by norm_num [SunAngleParameters.default], i1, i0, i0, by norm_num, by norm_num, by norm_num, i2, by norm_num,
    daysFrom_epoch (by decide), by norm_num [SunAngleParameters.default]⟩, by norm_num, by norm_num [abs_le]⟩

end Verif
