import Verif.Props.Solstice
import Verif.Lemmas.EquationOfTimeDates

/-!
# C106: the equation of time
-/

namespace Verif
open Arith Matrix Spec F64

/-- Components of a vector along the two axes of the meridian. -/
theorem axes_le (lon : ℝ) (v : Fin 3 → ℝ) : |eastward lon v| ≤ len v ∧ |outward lon v| ≤ len v := by
  have hs := Real.sin_sq_add_cos_sq (lon * (Real.pi / 180))
  have d1 := dot_le ![-Real.sin (lon * (Real.pi / 180)), Real.cos (lon * (Real.pi / 180)), 0] v
  have d2 := dot_le ![Real.cos (lon * (Real.pi / 180)), Real.sin (lon * (Real.pi / 180)), 0] v
  have l1 : len ![-Real.sin (lon * (Real.pi / 180)), Real.cos (lon * (Real.pi / 180)), 0] = 1 := by
    unfold len; simp
  have l2 : len ![Real.cos (lon * (Real.pi / 180)), Real.sin (lon * (Real.pi / 180)), 0] = 1 := by
    unfold len; simp
  rw [l1, one_mul] at d1
  rw [l2, one_mul] at d2
  simp only [Matrix.cons_val_zero, Matrix.cons_val_one, Matrix.cons_val, zero_mul, add_zero] at d1 d2
  refine ⟨le_trans (le_of_eq (congrArg (fun x : ℝ => |x|) ?_)) d1, d2⟩
  unfold eastward; ring

/-- The Sun of the program at mean noon against the polynomials of the longitude. -/
theorem noon_sun (p : Profile) (q : SunAngleParameters ℝ) (hd : GoodDate q.date) (c : SunAngleCalculator ℝ)
    (hc : SunAngleCalculator.new p q = .ok c) (δ : ℝ) (N : ℤ) (hN : DaysFrom mjdEpoch q.date.civil N)
    (hb : |N - 51544.5 + (3600 * q.time.hour + 60 * q.time.minute + q.time.second + δ) / 86400| ≤ 36524) (k : ℤ)
    (hT : (3600 * q.time.hour + 60 * q.time.minute + q.time.second + δ) / 3600 + q.position.lon / 15 = 12 + 24 * k) :
    ∃ r, c.compute δ = .ok r ∧ ∀ (j : ℤ) (w : ℝ),
      meanLongitude (N - 51544.5 + (3600 * q.time.hour + 60 * q.time.minute + q.time.second + δ) / 86400) - Real.pi +
        0.0244287 * ((N - 51544.5 + (3600 * q.time.hour + 60 * q.time.minute + q.time.second + δ) / 86400) / 36525) =
        w + j * (2 * Real.pi) →
      |eastward q.position.lon r.sun_e.toVec / 149597870700 - eotF (Real.sin w) (Real.cos w)| ≤ 0.00285 ∧
      |outward q.position.lon r.sun_e.toVec / 149597870700 - eotG (Real.sin w) (Real.cos w)| ≤ 0.00755 := by
  obtain ⟨r, hr, -, -, hm⟩ := sun_state p q hd c hc N hN δ hb
  refine ⟨r, hr, fun j w hw => ?_⟩
  obtain ⟨a1, a2⟩ := axes_le q.position.lon ((fun i => r.sun_e.toVec i / 149597870700) -
    meanSun (N - 51544.5 + (3600 * q.time.hour + 60 * q.time.minute + q.time.second + δ) / 86400))
  obtain ⟨b1, b2⟩ := noon_east (lam := q.position.lon * (Real.pi / 180)) (hb.trans (by norm_num))
    ⟨N - 51544 + k, by
      have : q.position.lon = 15 * (12 + 24 * k) - (3600 * q.time.hour + 60 * q.time.minute + q.time.second + δ) / 240 := by linarith
      rw [this]; push_cast; ring⟩ hw
  have c1 := a1.trans hm
  have c2 := a2.trans hm
  unfold eastward outward at *
  simp only [Pi.sub_apply] at c1 c2
  generalize meanSun _ 0 = m0 at *
  generalize meanSun _ 1 = m1 at *
  generalize Real.sin (q.position.lon * (Real.pi / 180)) = S at *
  generalize Real.cos (q.position.lon * (Real.pi / 180)) = C at *
  constructor
  · refine le_trans (le_of_eq (congrArg (fun x : ℝ => |x|) ?_)) ((abs_add_le _ _).trans ((add_le_add c1 b1).trans (by norm_num)))
    ring
  · refine le_trans (le_of_eq (congrArg (fun x : ℝ => |x|) ?_)) ((abs_add_le _ _).trans ((add_le_add c2 b2).trans (by norm_num)))
    ring

/-- **C106.** The equation of time.  In exact arithmetic, for every accepted date, time and place and every offset, if the instant is
mean noon at the place (hour 12 of the UTC time increased by an hour for each 15 degrees of longitude) and within 36524 days of
2000-01-01 12:00 UTC: the Sun is on the noon side of the axis of the Earth, and its hour angle is between 17.54 minutes past the
meridian and 15.52 minutes short of it.  The sundial then shows a time between 11:44:28 and 12:17:33. -/
theorem C106_equation_of_time (p : Profile) (q : SunAngleParameters ℝ) (hd : GoodDate q.date) (c : SunAngleCalculator ℝ)
    (hc : SunAngleCalculator.new p q = .ok c) (δ : ℝ) (N : ℤ) (hN : DaysFrom mjdEpoch q.date.civil N)
    (hb : |N - 51544.5 + (3600 * q.time.hour + 60 * q.time.minute + q.time.second + δ) / 86400| ≤ 36524) (k : ℤ)
    (hT : (3600 * q.time.hour + 60 * q.time.minute + q.time.second + δ) / 3600 + q.position.lon / 15 = 12 + 24 * k) :
    ∃ r, c.compute δ = .ok r ∧ 0 < outward q.position.lon r.sun_e.toVec ∧
      -(0.0765 * outward q.position.lon r.sun_e.toVec) + 1e8 ≤ eastward q.position.lon r.sun_e.toVec ∧
      eastward q.position.lon r.sun_e.toVec ≤ 0.0677 * outward q.position.lon r.sun_e.toVec - 1e8 ∧
      -17.54 ≤ Real.arctan (eastward q.position.lon r.sun_e.toVec / outward q.position.lon r.sun_e.toVec) * (720 / Real.pi) ∧
      Real.arctan (eastward q.position.lon r.sun_e.toVec / outward q.position.lon r.sun_e.toVec) * (720 / Real.pi) ≤ 15.52 := by
  obtain ⟨r, hr, h⟩ := noon_sun p q hd c hc δ N hN hb k hT
  obtain ⟨h1, h2⟩ := h 0 _ (by push_cast; rw [zero_mul, add_zero])
  generalize meanLongitude _ - Real.pi + _ = w at *
  obtain ⟨g1, g2⟩ := eot_range w
  refine ⟨r, hr, ?_⟩
  generalize eotF (Real.sin w) (Real.cos w) = F at *
  generalize eotG (Real.sin w) (Real.cos w) = G at *
  generalize eastward q.position.lon r.sun_e.toVec = E at *
  generalize outward q.position.lon r.sun_e.toVec = X at *
  clear * - h1 h2 g1 g2
  rw [abs_le] at h1 h2
  have hX : 0 < X := by
    have : 0.05 < X / 149597870700 := by norm_num at *; linarith [h2.1]
    norm_num at this; linarith
  have e1 : -(0.0765 * X) + 1e8 ≤ E := by norm_num at *; linarith [h1.1, h2.2]
  have e2 : E ≤ 0.0677 * X - 1e8 := by norm_num at *; linarith [h1.2, h2.2]
  refine ⟨hX, e1, e2, ?_⟩
  have p1 := Real.pi_gt_d6
  have p0 := Real.pi_pos
  have at_le : ∀ x : ℝ, 0 ≤ x → Real.arctan x ≤ x := fun x hx => by
    have := Real.le_tan (Real.arctan_nonneg.mpr hx) (Real.arctan_lt_pi_div_two x)
    rwa [Real.tan_arctan] at this
  have l1 : -0.0765 ≤ E / X := by rw [le_div_iff₀ hX]; norm_num at *; linarith
  have l2 : E / X ≤ 0.0677 := by rw [div_le_iff₀ hX]; norm_num at *; linarith
  have m1 := Real.arctan_strictMono.monotone l1
  have m2 := Real.arctan_strictMono.monotone l2
  have a1 := at_le 0.0765 (by norm_num)
  have a2 := at_le 0.0677 (by norm_num)
  rw [Real.arctan_neg] at m1
  have b1 := (neg_le_neg a1).trans m1
  have b2 := m2.trans a2
  clear m1 m2 l1 l2
  generalize Real.arctan (E / X) = A at *
  constructor
  · rw [mul_div_assoc', le_div_iff₀ p0]; norm_num at *; linarith
  · rw [mul_div_assoc', div_le_iff₀ p0]; norm_num at *; linarith

/-- **C106.** When the sundial is slow and when it is fast.  In exact arithmetic, for dates from 1901 to 2098 and an instant of the date
that is mean noon at the place: from 29 December to 10 April and from 19 June to 27 August the Sun is still east of the meridian,
and from 21 April to 7 June and from 5 September to 21 December it is already west of it, by thirty thousand kilometres at least. -/
theorem C106_sundial (p : Profile) (q : SunAngleParameters ℝ) (hd : GoodDate q.date) (c : SunAngleCalculator ℝ)
    (hc : SunAngleCalculator.new p q = .ok c) (y1 : 1901 ≤ q.date.year) (y2 : q.date.year ≤ 2098) (δ W : ℝ)
    (hW : W = 3600 * q.time.hour + 60 * q.time.minute + q.time.second + δ) (w0 : 0 ≤ W) (w1 : W ≤ 86400) (k : ℤ)
    (hT : W / 3600 + q.position.lon / 15 = 12 + 24 * k) :
    ∃ r, c.compute δ = .ok r ∧
      (SundialSlow q.date.month q.date.day → 3e7 ≤ eastward q.position.lon r.sun_e.toVec) ∧
      (SundialFast q.date.month q.date.day → eastward q.position.lon r.sun_e.toVec ≤ -3e7) := by
  have f0 : 0 ≤ W / 86400 := by positivity
  have f1 : W / 86400 ≤ 1 := by linarith
  obtain ⟨-, -, -, -, hb, -⟩ := phase_of_date y1 y2 hd.civil f0 f1
  obtain ⟨r, hr, h⟩ := noon_sun p q hd c hc δ _ (daysFrom_epoch hd.civil) (by rw [← hW]; exact hb) k (by rw [← hW]; exact hT)
  rw [← hW] at h
  refine ⟨r, hr, fun hs => ?_, fun hs => ?_⟩
  · obtain ⟨-, j, w, hw, hF⟩ := eot_slow y1 y2 hd.civil hs f0 f1
    have := (abs_le.mp (h j w hw).1).1
    generalize eastward _ _ = E at *
    norm_num at *; linarith
  · obtain ⟨-, j, w, hw, hF⟩ := eot_fast y1 y2 hd.civil hs f0 f1
    have := (abs_le.mp (h j w hw).1).2
    generalize eastward _ _ = E at *
    norm_num at *; linarith

/-- 30 degrees west at 14:00 UTC on 11 February and on 3 November 2024. -/
example : ∃ q : ℤ → ℤ → SunAngleParameters ℝ, (∀ m d, (q m d).date = ⟨2024, m, d⟩) ∧
    (∀ a ∈ [((2 : ℤ), (11 : ℤ)), (11, 3)], GoodDate (q a.1 a.2).date ∧ (∃ c, SunAngleCalculator.new .checked (q a.1 a.2) = .ok c) ∧
      (3600 * (q a.1 a.2).time.hour + 60 * (q a.1 a.2).time.minute + (q a.1 a.2).time.second + 50400 : ℝ) / 3600 + (q a.1 a.2).position.lon / 15 =
        12 + 24 * (0 : ℤ)) ∧ SundialSlow 2 11 ∧ SundialFast 11 3 := by
  refine ⟨fun m d => { SunAngleParameters.default with date := ⟨2024, m, d⟩, position := ⟨-30, 45, 0⟩ }, fun _ _ => rfl, ?_,
    by unfold SundialSlow; decide, by unfold SundialFast; decide⟩
  intro a ha
  have hd : GoodDate ⟨2024, a.1, a.2⟩ := by
    simp only [List.mem_cons, List.not_mem_nil, or_false] at ha
    rcases ha with rfl | rfl <;> exact ⟨by decide, by decide, by decide⟩
  refine ⟨hd, (C52_new_exact _ _ hd).1.mpr ?_, ?_⟩
  · unfold SunAngleParameters.default HMS.toFractionOfDay
    norm_num
  · unfold SunAngleParameters.default
    norm_num

/-- **C106.** The same in binary64, for any mathematical library accurate to `2^-50` and finite parameters: the vector to the Sun
that the program returns is on the same side of the meridian and within the same limits. -/
theorem C106_sundial_f64 [Libm F64] (hL : LibmAcc) (p : Profile) (q : SunAngleParameters F64) (δ : F64) (s l b h d : ℚ) (N : ℤ)
    (H : SunInput q δ s l b h d N) (W : ℚ) (hW : W = 3600 * q.time.hour + 60 * q.time.minute + s + d) (k : ℤ)
    (hT : W / 3600 + l / 15 = 12 + 24 * k) :
    ∃ (c : SunAngleCalculator F64) (r : SunAngleResult F64) (x y w : ℚ), SunAngleCalculator.new p q = .ok c ∧ c.compute δ = .ok r ∧
      Is r.sun_e.x x ∧ Is r.sun_e.y y ∧ Is r.sun_e.z w ∧
      0 < outward l ![(x : ℝ), y, w] ∧ -(0.0765 * outward l ![(x : ℝ), y, w]) ≤ eastward l ![(x : ℝ), y, w] ∧
      eastward l ![(x : ℝ), y, w] ≤ 0.0677 * outward l ![(x : ℝ), y, w] ∧
      (1901 ≤ q.date.year → q.date.year ≤ 2098 → 0 ≤ W → W ≤ 86400 →
        (SundialSlow q.date.month q.date.day → 0 < eastward l ![(x : ℝ), y, w]) ∧
        (SundialFast q.date.month q.date.day → eastward l ![(x : ℝ), y, w] < 0)) := by
  obtain ⟨c, C, r, R, hc, hC, hr, hR, -, -, ⟨⟨x, ix, ex⟩, ⟨y, iy, ey⟩, ⟨w, iw, ew⟩⟩, -, -⟩ := C72_sun_angle_f64 hL p q δ s l b h d N H
  refine ⟨c, r, x, y, w, hc, hr, ix, iy, iw, ?_⟩
  have hTr : (W : ℝ) / 3600 + (l : ℝ) / 15 = 12 + 24 * k := by exact_mod_cast hT
  have hWr : (W : ℝ) = 3600 * q.time.hour + 60 * q.time.minute + s + d := by rw [hW]; push_cast; rfl
  obtain ⟨R', hR', X0, e1, e2, -, -⟩ := C106_equation_of_time p (exactParams q s l b h) H.date C hC d N H.days (by
      have t := (Rat.cast_le (K := ℝ)).mpr H.century
      push_cast at t
      refine le_trans (le_of_eq (congrArg (fun x : ℝ => |x|) ?_)) t
      show (N : ℝ) - 51544.5 + (3600 * q.time.hour + 60 * q.time.minute + s + d) / 86400 = _
      norm_num
      ring) k (by rw [hWr] at hTr; exact hTr)
  obtain rfl := Except.ok.inj (hR.symm.trans hR')
  have lon : (exactParams q s l b h).position.lon = l := rfl
  rw [lon] at X0 e1 e2
  have bound : ∀ a u v : ℝ, |a| ≤ 1 → |u - v| ≤ 85 → |a * (u - v)| ≤ 1 * 85 := fun a u v h1 h2 => abs_mul_le h1 h2
  have s1 := Real.abs_sin_le_one ((l : ℝ) * (Real.pi / 180))
  have c1 := Real.abs_cos_le_one ((l : ℝ) * (Real.pi / 180))
  have v0 : R.sun_e.toVec 0 = R.sun_e.x := rfl
  have v1 : R.sun_e.toVec 1 = R.sun_e.y := rfl
  have dE : |eastward l ![(x : ℝ), y, w] - eastward l R.sun_e.toVec| ≤ 170 := by
    have t1 := bound _ _ _ s1 ex
    have t2 := bound _ _ _ c1 ey
    have : eastward l ![(x : ℝ), y, w] - eastward l R.sun_e.toVec =
        -(Real.sin ((l : ℝ) * (Real.pi / 180)) * (x - R.sun_e.x)) + Real.cos ((l : ℝ) * (Real.pi / 180)) * (y - R.sun_e.y) := by
      unfold eastward; rw [v0, v1]; simp; ring
    rw [this]
    refine (abs_add_le _ _).trans ?_
    rw [abs_neg]; linarith
  have dX : |outward l ![(x : ℝ), y, w] - outward l R.sun_e.toVec| ≤ 170 := by
    have t1 := bound _ _ _ c1 ex
    have t2 := bound _ _ _ s1 ey
    have : outward l ![(x : ℝ), y, w] - outward l R.sun_e.toVec =
        Real.cos ((l : ℝ) * (Real.pi / 180)) * (x - R.sun_e.x) + Real.sin ((l : ℝ) * (Real.pi / 180)) * (y - R.sun_e.y) := by
      unfold outward; rw [v0, v1]; simp; ring
    rw [this]
    refine (abs_add_le _ _).trans ?_
    linarith
  have hs : 1901 ≤ q.date.year → q.date.year ≤ 2098 → 0 ≤ W → W ≤ 86400 → _ := fun y1 y2 w0 w1 =>
    C106_sundial p (exactParams q s l b h) H.date C hC y1 y2 d W hWr (by exact_mod_cast w0) (by exact_mod_cast w1) k hTr
  rw [abs_le] at dE dX
  generalize outward l ![(x : ℝ), y, w] = X at *
  generalize hEE : eastward l ![(x : ℝ), y, w] = E at *
  refine ⟨?_, ?_, ?_, ?_⟩
  · clear hs; norm_num at *; linarith [dX.1]
  · clear hs; norm_num at *; linarith [dX.2, dE.1]
  · clear hs; norm_num at *; linarith [dX.1, dE.2]
  · intro y1 y2 w0 w1
    obtain ⟨Q, hQ, k1, k2⟩ := hs y1 y2 w0 w1
    obtain rfl := Except.ok.inj (hR.symm.trans hQ)
    rw [lon] at k1 k2
    refine ⟨fun g => ?_, fun g => ?_⟩
    · have := k1 g
      clear k1 k2; norm_num at *; linarith [dE.1]
    · have := k2 g
      clear k1 k2; norm_num at *; linarith [dE.2]

/-- A library that exists; 11 February 2024 at 30 degrees west, 14:00 UTC. -/
example : ∃ L : Libm F64, @LibmAcc L ∧
    SunInput ({ SunAngleParameters.default with date := ⟨2024, 2, 11⟩, position := ⟨lit (-30), lit 45, lit 0⟩ } : SunAngleParameters F64)
      (lit 50400) 0 (-30) 45 0 50400 60351 ∧ (50400 : ℚ) / 3600 + (-30) / 15 = 12 + 24 * (0 : ℤ) ∧ SundialSlow 2 11 := by
  have i0 : Is (lit 0 : F64) 0 := by have := Is.lit_int 0 (by norm_num); push_cast at this; exact this
  have i1 : Is (lit (-30) : F64) (-30) := by have := Is.lit_int (-30) (by norm_num); push_cast at this; exact this
  have i2 : Is (lit 50400 : F64) 50400 := by have := Is.lit_int 50400 (by norm_num); push_cast at this; exact this
  have i3 : Is (lit 45 : F64) 45 := by have := Is.lit_int 45 (by norm_num); push_cast at this; exact this
  refine ⟨goodLibm, exists_libmAcc, ⟨⟨by decide, by decide, by decide⟩, by decide, by decide, i0, by
    norm_num [SunAngleParameters.default], by norm_num [SunAngleParameters.default], i1, i3, i0, by norm_num, by norm_num, by norm_num, i2, by norm_num,
    daysFrom_epoch (by decide), by norm_num [SunAngleParameters.default]⟩, by norm_num, by unfold SundialSlow; decide⟩

end Verif
