import Verif.Props.NoonAltitude
import Verif.Lemmas.DeclMotion

/-!
# C105: the declination of the Sun between the solstices
-/

namespace Verif
open Arith Matrix Spec F64

theorem arcsin_step {x y e : ℝ} (hx : -1 ≤ x) (hy : y ≤ 1) (e0 : 0 ≤ e) (he : x + e ≤ y) : Real.arcsin x + e ≤ Real.arcsin y := by
  have hm : Real.arcsin x ≤ Real.arcsin y := Real.monotone_arcsin (by linarith)
  have s1 := Real.sin_arcsin hx (by linarith)
  have s2 := Real.sin_arcsin (by linarith) hy
  have := abs_sin_sub (Real.arcsin y) (Real.arcsin x)
  rw [abs_of_nonneg (show 0 ≤ Real.arcsin y - Real.arcsin x by linarith), s1, s2] at this
  have := (le_abs_self _).trans this
  linarith

/-- The declination from the vector in astronomical units. -/
theorem decl_unit (v : Vec3 ℝ) : decl v = Real.arcsin ((fun i => v.toVec i / 149597870700) 2 / len (fun i => v.toVec i / 149597870700)) := by
  rw [scaled_len, norm_real, decl]
  have : v.toVec 2 = v.z := rfl
  simp only [this]
  rw [div_div_div_cancel_right₀ (by norm_num)]

theorem unit_bounds (S : Fin 3 → ℝ) : -1 ≤ S 2 / len S ∧ S 2 / len S ≤ 1 := by
  rw [← abs_le, abs_div, abs_of_nonneg (len_nonneg S)]
  exact div_le_one_of_le₀ (abs_le_len S 2) (len_nonneg S)

set_option maxHeartbeats 1600000 in
/-- **C105.** Between the solstices the declination of the Sun runs one way: in exact arithmetic, for two dates from 1901 to 2098,
any two places, and two instants, each within its date to two hours and at least six hours apart, if both dates are from 25
December to 18 June of the same winter and spring, the later declination is the greater, and if both are from 24 June to 18
December of the same year, it is the smaller; the change is at least `2.6e-5` radians for each day less `5.3e-6`. -/
theorem C105_between_solstices (p : Profile) (q q' : SunAngleParameters ℝ) (hd : GoodDate q.date) (hd' : GoodDate q'.date)
    (c c' : SunAngleCalculator ℝ) (hc : SunAngleCalculator.new p q = .ok c) (hc' : SunAngleCalculator.new p q' = .ok c')
    (y1 : 1901 ≤ q.date.year) (y2 : q.date.year ≤ 2098) (y1' : 1901 ≤ q'.date.year) (y2' : q'.date.year ≤ 2098)
    (N N' : ℤ) (hN : DaysFrom mjdEpoch q.date.civil N) (hN' : DaysFrom mjdEpoch q'.date.civil N') (δ δ' W W' : ℝ)
    (hW : W = 3600 * q.time.hour + 60 * q.time.minute + q.time.second + δ) (w0 : -7200 ≤ W) (w1 : W ≤ 93600)
    (hW' : W' = 3600 * q'.time.hour + 60 * q'.time.minute + q'.time.second + δ') (w0' : -7200 ≤ W') (w1' : W' ≤ 93600)
    (D : ℝ) (hD : D = N' + W' / 86400 - (N + W / 86400)) (hD4 : 0.25 ≤ D) (k : ℤ) :
    ∃ r r', c.compute δ = .ok r ∧ c'.compute δ' = .ok r' ∧
      (Rising k q.date.year q.date.month q.date.day → Rising k q'.date.year q'.date.month q'.date.day →
        decl r.sun_e < decl r'.sun_e ∧ decl r.sun_e + 2.6e-5 * D - 5.3e-6 ≤ decl r'.sun_e) ∧
      (Falling k q.date.year q.date.month q.date.day → Falling k q'.date.year q'.date.month q'.date.day →
        decl r'.sun_e < decl r.sun_e ∧ decl r'.sun_e + 2.6e-5 * D - 5.3e-6 ≤ decl r.sun_e) := by
  obtain rfl : N = mjdN q.date.year q.date.month q.date.day :=
    (daysFrom_unique _ _ (by decide) hd.civil _ hN).trans (daysFrom_unique _ _ (by decide) hd.civil _ (daysFrom_epoch hd.civil)).symm
  obtain rfl : N' = mjdN q'.date.year q'.date.month q'.date.day :=
    (daysFrom_unique _ _ (by decide) hd'.civil _ hN').trans (daysFrom_unique _ _ (by decide) hd'.civil _ (daysFrom_epoch hd'.civil)).symm
  have range : ∀ {d : GregorianDate}, GoodDate d → 1901 ≤ d.year → d.year ≤ 2098 → ∀ {w : ℝ}, -7200 ≤ w → w ≤ 93600 →
      |(mjdN d.year d.month d.day : ℝ) - 51544.5 + w / 86400| ≤ 36524 := by
    intro d hd a b w h1 h2
    obtain ⟨n1, n2⟩ := mjdN_range a b hd.civil
    have n1' : (15385 : ℝ) ≤ mjdN d.year d.month d.day := by exact_mod_cast n1
    have n2' : (mjdN d.year d.month d.day : ℝ) ≤ 87705 := by exact_mod_cast n2
    rw [abs_le]; constructor <;> norm_num <;> linarith
  have hb := range hd y1 y2 w0 w1
  have hb' := range hd' y1' y2' w0' w1'
  obtain ⟨r, hr, htt, -, -, -, hdat, b0, -⟩ := sun_at p q hd c hc _ hN δ (hW ▸ hb)
  obtain ⟨r', hr', htt', -, -, -, hdat', b0', -⟩ := sun_at p q' hd' c' hc' _ hN' δ' (hW' ▸ hb')
  refine ⟨r, r', hr, hr', ?_⟩
  rw [← hW] at htt
  rw [← hW'] at htt'
  have hS := sun_vec p q hd c hc δ hr
  have hS' := sun_vec p q' hd' c' hc' δ' hr'
  rw [decl_unit, decl_unit]
  generalize (fun i => r.sun_e.toVec i / 149597870700) = S at *
  generalize (fun i => r'.sun_e.toVec i / 149597870700) = S' at *
  have u := unit_bounds S
  have u' := unit_bounds S'
  -- the dates
  have R1 : Rising k q.date.year q.date.month q.date.day → _ := fun h => rising_phase y1 y2 hd.civil h (f := W / 86400)
    (by norm_num; linarith) (by norm_num; linarith)
  have R2 : Rising k q'.date.year q'.date.month q'.date.day → _ := fun h => rising_phase y1' y2' hd'.civil h (f := W' / 86400)
    (by norm_num; linarith) (by norm_num; linarith)
  have F1 : Falling k q.date.year q.date.month q.date.day → _ := fun h => falling_phase y1 y2 hd.civil h (f := W / 86400)
    (by norm_num; linarith) (by norm_num; linarith)
  have F2 : Falling k q'.date.year q'.date.month q'.date.day → _ := fun h => falling_phase y1' y2' hd'.civil h (f := W' / 86400)
    (by norm_num; linarith) (by norm_num; linarith)
  generalize q.date = dt at *
  generalize q'.date = dt' at *
  generalize (mjdN dt.year dt.month dt.day : ℝ) = M at *
  generalize (mjdN dt'.year dt'.month dt'.day : ℝ) = M' at *
  set n := M - 51544.5 + W / 86400 with hn
  set n' := M' - 51544.5 + W' / 86400 with hn'
  have hDn : D = n' - n := by rw [hD, hn, hn']; ring
  have e1 : r.tt.1 + r.tt.2 - 2451545 = n + (r.dat + 32.184) / 86400 := by rw [htt, hn]; norm_num; ring
  have e2 : r'.tt.1 + r'.tt.2 - 2451545 = n' + (r'.dat + 32.184) / 86400 := by rw [htt', hn']; norm_num; ring
  rw [abs_le] at hdat hdat'
  have s1 : -0.0008 ≤ (r.dat + 32.184) / 86400 := by norm_num at *; linarith [hdat.1]
  have s2 : (r.dat + 32.184) / 86400 ≤ 0.00154 := by norm_num at *; linarith [hdat.2]
  have s1' : -0.0008 ≤ (r'.dat + 32.184) / 86400 := by norm_num at *; linarith [hdat'.1]
  have s2' : (r'.dat + 32.184) / 86400 ≤ 0.00154 := by norm_num at *; linarith [hdat'.2]
  generalize (r.dat + 32.184) / 86400 = x at *
  generalize (r'.dat + 32.184) / 86400 = x' at *
  clear_value n n'
  obtain ⟨⟨ta, tb⟩, hta⟩ : ∃ t, t = r.tt := ⟨_, rfl⟩
  obtain ⟨⟨ta', tb'⟩, hta'⟩ : ∃ t, t = r'.tt := ⟨_, rfl⟩
  obtain ⟨⟨ua, ub⟩, hua⟩ : ∃ t, t = r.ut1 := ⟨_, rfl⟩
  obtain ⟨⟨ua', ub'⟩, hua'⟩ : ∃ t, t = r'.ut1 := ⟨_, rfl⟩
  rw [← hta, ← hua] at hS
  rw [← hta', ← hua'] at hS'
  rw [← hta] at e1 b0
  rw [← hta'] at e2 b0'
  simp only at hS hS' e1 e2 b0 b0'
  have pi1 := Real.pi_gt_d6
  have pi2 := Real.pi_lt_d6
  have hlt : ta + tb < ta' + tb' := by norm_num at *; linarith
  -- the phase at the ends and between
  have ends : ∀ {m y : ℝ}, -0.0008 ≤ y → y ≤ 0.00154 → |phase k (m + y) - phase k m| ≤ 3e-5 := by
    intro m y h1 h2
    rcases le_total 0 y with h | h
    · obtain ⟨a1, a2⟩ := phase_mono k (show m ≤ m + y by linarith)
      rw [abs_le]; constructor <;> norm_num at * <;> linarith
    · obtain ⟨a1, a2⟩ := phase_mono k (show m + y ≤ m by linarith)
      rw [abs_le]; constructor <;> norm_num at * <;> linarith
  have E1 := abs_le.mp (ends (m := n) s1 s2)
  have E2 := abs_le.mp (ends (m := n') s1' s2')
  have inner : ∀ s, ta + tb < s → s < ta' + tb' → |s - 2451545| ≤ 36526 ∧ phase k (n + x) ≤ phase k (s - 2451545) ∧
      phase k (s - 2451545) ≤ phase k (n' + x') := by
    intro s h1 h2
    rw [abs_le] at b0 b0' ⊢
    refine ⟨⟨by linarith [b0.1], by linarith [b0'.2]⟩, (phase_mono k ?_).1, (phase_mono k ?_).1⟩ <;> linarith
  have long : ∀ {A B : ℝ}, A ≤ phase k n → phase k n' ≤ B → B - A ≤ 3.3 → ta' + tb' - (ta + tb) ≤ 200 := by
    intro A B h1 h2 h3
    have e : phase k n' - phase k n = (35999.37244981 / 36525 / 180 * Real.pi + 0.0244287 / 36525) * (n' - n) := by
      unfold phase meanLongitude; ring
    have : 0.0172 * (n' - n) ≤ phase k n' - phase k n := by
      rw [e]
      refine mul_le_mul_of_nonneg_right ?_ (by norm_num at *; linarith)
      norm_num at *; linarith
    norm_num at *; linarith
  have fin : ∀ {a b : ℝ}, -1 ≤ a → b ≤ 1 → a + 2.69e-5 * (ta' + tb' - (ta + tb)) - 5.2001e-6 ≤ b →
      Real.arcsin a < Real.arcsin b ∧ Real.arcsin a + 2.6e-5 * D - 5.3e-6 ≤ Real.arcsin b := by
    intro a b h1 h2 h3
    have := arcsin_step (e := 2.6e-5 * D - 5.3e-6) h1 h2 (by norm_num at *; linarith) (by norm_num at *; linarith)
    constructor
    · norm_num at *; linarith
    · linarith
  constructor
  · intro i1 i2
    have g1 := abs_le.mp (R1 i1)
    have g2 := abs_le.mp (R2 i2)
    refine fin u.1 u'.2 ((sun_decl_step b0 b0' hlt (long g1.1 g2.2 (by norm_num at *; linarith)) hS hS').1 fun s h1 h2 => ?_)
    obtain ⟨c0, c1, c2⟩ := inner s h1 h2
    exact (phase_drive k c0).1 (by norm_num at *; linarith [g1.1, E1.1]) (by norm_num at *; linarith [g2.2, E2.2])
  · intro i1 i2
    have g1 := F1 i1
    have g2 := F2 i2
    refine fin u'.1 u.2 ((sun_decl_step b0 b0' hlt (long g1.1 g2.2 (by norm_num at *; linarith)) hS hS').2 fun s h1 h2 => ?_)
    obtain ⟨c0, c1, c2⟩ := inner s h1 h2
    exact (phase_drive k c0).2 (by norm_num at *; linarith [g1.1, E1.1]) (by norm_num at *; linarith [g2.2, E2.2])

/-- Christmas 2023 against 18 June 2024, and 24 June against 18 December 2024, with the default place of the program. -/
example : ∃ q : ℤ → ℤ → ℤ → SunAngleParameters ℝ, (∀ y m d, (q y m d).date = ⟨y, m, d⟩) ∧
    (∀ a ∈ [((2023 : ℤ), (12 : ℤ), (25 : ℤ)), (2024, 6, 18), (2024, 6, 24), (2024, 12, 18)],
      GoodDate (q a.1 a.2.1 a.2.2).date ∧ ∃ c, SunAngleCalculator.new .checked (q a.1 a.2.1 a.2.2) = .ok c) ∧
    Rising 2024 2023 12 25 ∧ Rising 2024 2024 6 18 ∧ Falling 2024 2024 6 24 ∧ Falling 2024 2024 12 18 := by
  refine ⟨fun y m d => { SunAngleParameters.default with date := ⟨y, m, d⟩ }, fun _ _ _ => rfl, ?_, by unfold Spec.Rising; decide,
    by unfold Spec.Rising; decide, by unfold Spec.Falling; decide, by unfold Spec.Falling; decide⟩
  intro a ha
  have hd : GoodDate ⟨a.1, a.2.1, a.2.2⟩ := by
    simp only [List.mem_cons, List.not_mem_nil, or_false] at ha
    rcases ha with rfl | rfl | rfl | rfl <;> exact ⟨by decide, by decide, by decide⟩
  refine ⟨hd, (C52_new_exact _ _ hd).1.mpr ?_⟩
  unfold SunAngleParameters.default HMS.toFractionOfDay
  norm_num

/-- **C105.** The same in binary64, for any mathematical library accurate to `2^-50`: for finite parameters, the instants within
their dates and at least six hours apart, the declinations of the returned vectors to the Sun compare in the same way. -/
theorem C105_between_solstices_f64 [Libm F64] (hL : LibmAcc) (p : Profile) (q q' : SunAngleParameters F64) (δ δ' : F64)
    (s l b h d s' l' b' h' d' : ℚ) (N N' : ℤ) (H : SunInput q δ s l b h d N) (H' : SunInput q' δ' s' l' b' h' d' N')
    (y1 : 1901 ≤ q.date.year) (y2 : q.date.year ≤ 2098) (y1' : 1901 ≤ q'.date.year) (y2' : q'.date.year ≤ 2098) (W W' : ℚ)
    (hW : W = 3600 * q.time.hour + 60 * q.time.minute + s + d) (w0 : -7200 ≤ W) (w1 : W ≤ 93600)
    (hW' : W' = 3600 * q'.time.hour + 60 * q'.time.minute + s' + d') (w0' : -7200 ≤ W') (w1' : W' ≤ 93600)
    (hD : N + W / 86400 + 1 / 4 ≤ N' + W' / 86400) (k : ℤ) :
    ∃ (c c' : SunAngleCalculator F64) (r r' : SunAngleResult F64) (x y w x' y' w' : ℚ),
      SunAngleCalculator.new p q = .ok c ∧ c.compute δ = .ok r ∧ Is r.sun_e.x x ∧ Is r.sun_e.y y ∧ Is r.sun_e.z w ∧
      SunAngleCalculator.new p q' = .ok c' ∧ c'.compute δ' = .ok r' ∧ Is r'.sun_e.x x' ∧ Is r'.sun_e.y y' ∧ Is r'.sun_e.z w' ∧
      (Rising k q.date.year q.date.month q.date.day → Rising k q'.date.year q'.date.month q'.date.day →
        decl ⟨(x : ℝ), y, w⟩ < decl ⟨(x' : ℝ), y', w'⟩) ∧
      (Falling k q.date.year q.date.month q.date.day → Falling k q'.date.year q'.date.month q'.date.day →
        decl ⟨(x' : ℝ), y', w'⟩ < decl ⟨(x : ℝ), y, w⟩) := by
  have one : ∀ {q : SunAngleParameters F64} {δ : F64} {s l b h d : ℚ} {N : ℤ}, SunInput q δ s l b h d N →
      ∃ (c : SunAngleCalculator F64) (r : SunAngleResult F64) (x y w : ℚ) (C : SunAngleCalculator ℝ) (R : SunAngleResult ℝ),
        SunAngleCalculator.new p q = .ok c ∧ c.compute δ = .ok r ∧ Is r.sun_e.x x ∧ Is r.sun_e.y y ∧ Is r.sun_e.z w ∧
        SunAngleCalculator.new p (exactParams q s l b h) = .ok C ∧ C.compute (d : ℝ) = .ok R ∧
        |decl ⟨(x : ℝ), y, w⟩ - decl R.sun_e| ≤ 2e-9 := by
    intro q δ s l b h d N H
    obtain ⟨c, C, r, R, hc, hC, hr, hR, -, -, ⟨⟨x, ix, ex⟩, ⟨y, iy, ey⟩, ⟨w, iw, ew⟩⟩, -, -⟩ := C72_sun_angle_f64 hL p q δ s l b h d N H
    obtain ⟨R', hR', -, hl, -⟩ := sun_state p (exactParams q s l b h) H.date C hC N H.days d (by
      have t := (Rat.cast_le (K := ℝ)).mpr H.century
      push_cast at t
      refine le_trans (le_of_eq (congrArg (fun x : ℝ => |x|) ?_)) t
      show (N : ℝ) - 51544.5 + (3600 * q.time.hour + 60 * q.time.minute + s + d) / 86400 = _
      norm_num
      ring)
    obtain rfl := Except.ok.inj (hR.symm.trans hR')
    exact ⟨c, r, x, y, w, C, R, hc, hr, ix, iy, iw, hC, hR, decl_near (v := ⟨(x : ℝ), y, w⟩) ex ey ew hl⟩
  obtain ⟨c, r, x, y, w, C, R, hc, hr, ix, iy, iw, hC, hR, e⟩ := one H
  obtain ⟨c', r', x', y', w', C', R', hc', hr', ix', iy', iw', hC', hR', e'⟩ := one H'
  refine ⟨c, c', r, r', x, y, w, x', y', w', hc, hr, ix, iy, iw, hc', hr', ix', iy', iw', ?_⟩
  have hDr : (1 : ℝ) / 4 ≤ N' + W' / 86400 - (N + W / 86400) := by
    have := (Rat.cast_le (K := ℝ)).mpr hD
    push_cast at this
    linarith
  obtain ⟨Q, Q', hQ, hQ', k1, k2⟩ := C105_between_solstices p (exactParams q s l b h) (exactParams q' s' l' b' h') H.date H'.date C C' hC hC'
    y1 y2 y1' y2' N N' H.days H'.days d d' W W' (by rw [hW]; push_cast; rfl) (by exact_mod_cast w0) (by exact_mod_cast w1)
    (by rw [hW']; push_cast; rfl) (by exact_mod_cast w0') (by exact_mod_cast w1') _ rfl (by norm_num at hDr ⊢; exact hDr) k
  obtain rfl := Except.ok.inj (hR.symm.trans hQ)
  obtain rfl := Except.ok.inj (hR'.symm.trans hQ')
  generalize (N' : ℝ) + W' / 86400 - (N + W / 86400) = D at *
  rw [abs_le] at e e'
  constructor
  · intro i j
    have := (k1 i j).2
    clear k1 k2
    norm_num at this e e' hDr
    linarith [e.1, e.2, e'.1, e'.2]
  · intro i j
    have := (k2 i j).2
    clear k1 k2
    norm_num at this e e' hDr
    linarith [e.1, e.2, e'.1, e'.2]

/-- The default place of the program on 20 March and 21 March 2024; a library that exists. -/
example : ∃ L : Libm F64, @LibmAcc L ∧ ∀ a ∈ [((20 : ℤ), (60389 : ℤ)), (21, 60390)],
    SunInput ({ SunAngleParameters.default with date := ⟨2024, 3, a.1⟩, position := ⟨lit (-120), lit 45, lit 0⟩ } : SunAngleParameters F64)
      (lit 7200) 0 (-120) 45 0 7200 a.2 ∧ Rising 2024 2024 3 a.1 := by
  have i0 : Is (lit 0 : F64) 0 := by have := Is.lit_int 0 (by norm_num); push_cast at this; exact this
  have i1 : Is (lit (-120) : F64) (-120) := by have := Is.lit_int (-120) (by norm_num); push_cast at this; exact this
  have i2 : Is (lit 7200 : F64) 7200 := by have := Is.lit_int 7200 (by norm_num); push_cast at this; exact this
  have i3 : Is (lit 45 : F64) 45 := by have := Is.lit_int 45 (by norm_num); push_cast at this; exact this
  refine ⟨goodLibm, exists_libmAcc, fun a ha => ?_⟩
  simp only [List.mem_cons, List.not_mem_nil, or_false] at ha
  rcases ha with rfl | rfl <;>
  exact ⟨⟨⟨by decide, by decide, by decide⟩, by decide, by decide, i0, by
    norm_num [SunAngleParameters.default], by norm_num [SunAngleParameters.default], i1, i3, i0, by norm_num, by norm_num, by norm_num, i2, by norm_num,
    daysFrom_epoch (by decide), by norm_num [SunAngleParameters.default]⟩, by unfold Spec.Rising; decide⟩

/-- Noon heights follow the declination: in exact arithmetic, from 24 degrees of latitude on. -/
theorem noon_step {lat D D' z z' : ℝ} (hD : |D| ≤ 23.6 * (Real.pi / 180)) (hD' : |D'| ≤ 23.6 * (Real.pi / 180))
    (h : (24 ≤ lat ∧ D + 1e-5 ≤ D') ∨ (lat ≤ -24 ∧ D' + 1e-5 ≤ D)) (hz : |lat * (Real.pi / 180) - D| ≤ z)
    (hz' : |(z' - |lat * (Real.pi / 180) - D'|)| ≤ 4e-18) : z' < z := by
  have p0 := Real.pi_pos
  rw [abs_le] at hD hD'
  have hz2 := (abs_le.mp hz').2
  rcases h with ⟨h1, h2⟩ | ⟨h1, h2⟩
  · have : 24 * (Real.pi / 180) ≤ lat * (Real.pi / 180) := mul_le_mul_of_nonneg_right h1 (by positivity)
    rw [abs_of_nonneg (by norm_num at *; linarith)] at hz hz2
    norm_num at *; linarith
  · have : lat * (Real.pi / 180) ≤ -24 * (Real.pi / 180) := mul_le_mul_of_nonneg_right h1 (by positivity)
    rw [abs_of_nonpos (by norm_num at *; linarith)] at hz hz2
    norm_num at *; linarith

/-- **C105.** The Sun at noon climbs from day to day from winter to summer and sinks from summer to winter: in exact arithmetic,
from 24 degrees of latitude on, for two dates of one such half year, at the same place.  While the noon Sun climbs (in the north
from 25 December to 18 June, in the south from 24 June to 18 December), there is a moment within half an hour of local mean noon
of the later date when the Sun is higher than at any moment from 10:30 to 13:30 local mean time of the earlier date; while it
sinks, the same holds with the dates exchanged. -/
theorem C105_noon (p : Profile) (q q' : SunAngleParameters ℝ) (hd : GoodDate q.date) (hd' : GoodDate q'.date)
    (c c' : SunAngleCalculator ℝ) (hc : SunAngleCalculator.new p q = .ok c) (hc' : SunAngleCalculator.new p q' = .ok c')
    (y1 : 1901 ≤ q.date.year) (y2 : q.date.year ≤ 2098) (y1' : 1901 ≤ q'.date.year) (y2' : q'.date.year ≤ 2098)
    (N N' : ℤ) (hN : DaysFrom mjdEpoch q.date.civil N) (hN' : DaysFrom mjdEpoch q'.date.civil N') (hlt : N < N')
    (hpos : q'.position = q.position) (hlon : |q.position.lon| ≤ 180) (h1 : 24 ≤ |q.position.lat|) (h2 : |q.position.lat| ≤ 90)
    (T T' : ℝ → ℝ) (hT : ∀ δ, T δ = (3600 * q.time.hour + 60 * q.time.minute + q.time.second + δ) / 3600 + q.position.lon / 15)
    (hT' : ∀ δ, T' δ = (3600 * q'.time.hour + 60 * q'.time.minute + q'.time.second + δ) / 3600 + q.position.lon / 15) (k : ℤ) :
    ((0 < q.position.lat ∧ Rising k q.date.year q.date.month q.date.day ∧ Rising k q'.date.year q'.date.month q'.date.day ∨
      q.position.lat < 0 ∧ Falling k q.date.year q.date.month q.date.day ∧ Falling k q'.date.year q'.date.month q'.date.day) →
      ∃ a' r', |T' a' - 12| ≤ 0.5 ∧ c'.compute a' = .ok r' ∧ ∀ δ, |T δ - 12| ≤ 1.5 → ∃ r, c.compute δ = .ok r ∧ r'.sza < r.sza) ∧
    ((q.position.lat < 0 ∧ Rising k q.date.year q.date.month q.date.day ∧ Rising k q'.date.year q'.date.month q'.date.day ∨
      0 < q.position.lat ∧ Falling k q.date.year q.date.month q.date.day ∧ Falling k q'.date.year q'.date.month q'.date.day) →
      ∃ a r, |T a - 12| ≤ 0.5 ∧ c.compute a = .ok r ∧ ∀ δ', |T' δ' - 12| ≤ 1.5 → ∃ r', c'.compute δ' = .ok r' ∧ r.sza < r'.sza) := by
  have lat24 : 0 < q.position.lat → 24 ≤ q.position.lat := fun h => by rwa [abs_of_pos h] at h1
  have lat24' : q.position.lat < 0 → q.position.lat ≤ -24 := fun h => by rw [abs_of_neg h] at h1; linarith
  have hNr : (N : ℝ) + 1 ≤ N' := by exact_mod_cast hlt
  have hl := abs_le.mp hlon
  have nr : 15385 ≤ N ∧ N ≤ 87705 := by
    rw [(daysFrom_unique _ _ (by decide) hd.civil _ hN).trans (daysFrom_unique _ _ (by decide) hd.civil _ (daysFrom_epoch hd.civil)).symm]
    exact mjdN_range y1 y2 hd.civil
  have nr' : 15385 ≤ N' ∧ N' ≤ 87705 := by
    rw [(daysFrom_unique _ _ (by decide) hd'.civil _ hN').trans (daysFrom_unique _ _ (by decide) hd'.civil _ (daysFrom_epoch hd'.civil)).symm]
    exact mjdN_range y1' y2' hd'.civil
  have n1 : (15385 : ℝ) ≤ N := by exact_mod_cast nr.1
  have n2 : (N : ℝ) ≤ 87705 := by exact_mod_cast nr.2
  have n1' : (15385 : ℝ) ≤ N' := by exact_mod_cast nr'.1
  have n2' : (N' : ℝ) ≤ 87705 := by exact_mod_cast nr'.2
  -- the instants, by local time
  have W : ∀ δ, |T δ - 12| ≤ 1.5 → -7200 ≤ 3600 * q.time.hour + 60 * q.time.minute + q.time.second + δ ∧
      3600 * q.time.hour + 60 * q.time.minute + q.time.second + δ ≤ 93600 := by
    intro δ h
    rw [hT, abs_le] at h
    constructor <;> norm_num at h <;> linarith [h.1, h.2]
  have W' : ∀ δ, |T' δ - 12| ≤ 1.5 → -7200 ≤ 3600 * q'.time.hour + 60 * q'.time.minute + q'.time.second + δ ∧
      3600 * q'.time.hour + 60 * q'.time.minute + q'.time.second + δ ≤ 93600 := by
    intro δ h
    rw [hT', abs_le] at h
    constructor <;> norm_num at h <;> linarith [h.1, h.2]
  have B : ∀ δ, |T δ - 12| ≤ 1.5 → |(N : ℝ) - 51544.5 + (3600 * q.time.hour + 60 * q.time.minute + q.time.second + δ) / 86400| ≤ 36524 := by
    intro δ h
    obtain ⟨a, b⟩ := W δ h
    rw [abs_le]; constructor <;> norm_num <;> linarith
  have B' : ∀ δ, |T' δ - 12| ≤ 1.5 → |(N' : ℝ) - 51544.5 + (3600 * q'.time.hour + 60 * q'.time.minute + q'.time.second + δ) / 86400| ≤ 36524 := by
    intro δ h
    obtain ⟨a, b⟩ := W' δ h
    rw [abs_le]; constructor <;> norm_num <;> linarith
  have tropic : ∀ {p : Profile} {q : SunAngleParameters ℝ} (hd : GoodDate q.date) {c : SunAngleCalculator ℝ} (hc : SunAngleCalculator.new p q = .ok c)
      {N : ℤ} (hN : DaysFrom mjdEpoch q.date.civil N) {δ : ℝ}
      (_ : |(N : ℝ) - 51544.5 + (3600 * q.time.hour + 60 * q.time.minute + q.time.second + δ) / 86400| ≤ 36524) {r}
      (_ : c.compute δ = .ok r), |decl r.sun_e| ≤ 23.6 * (Real.pi / 180) := by
    intro p q hd c hc N hN δ hb r hr
    obtain ⟨r', hr', -, hl, hm⟩ := sun_state p q hd c hc N hN δ hb
    obtain rfl := Except.ok.inj (hr.symm.trans hr')
    have := declination_le (hb.trans (by norm_num)) hl hm
    rw [ang_pole (lt_of_lt_of_le (by norm_num) hl), show Real.pi / 2 - decl r.sun_e - Real.pi / 2 = -decl r.sun_e by ring, abs_neg] at this
    exact this
  have step : ∀ δ δ', |T δ - 12| ≤ 1.5 → |T' δ' - 12| ≤ 1.5 → |T δ - 12| + |T' δ' - 12| ≤ 2 → ∀ r r', c.compute δ = .ok r → c'.compute δ' = .ok r' →
      (Rising k q.date.year q.date.month q.date.day → Rising k q'.date.year q'.date.month q'.date.day → decl r.sun_e + 1e-5 ≤ decl r'.sun_e) ∧
      (Falling k q.date.year q.date.month q.date.day → Falling k q'.date.year q'.date.month q'.date.day → decl r'.sun_e + 1e-5 ≤ decl r.sun_e) := by
    intro δ δ' a a' b r r' hr hr'
    obtain ⟨w0, w1⟩ := W δ a
    obtain ⟨w0', w1'⟩ := W' δ' a'
    have big : 0.9 ≤ N' + (3600 * q'.time.hour + 60 * q'.time.minute + q'.time.second + δ') / 86400 -
        (N + (3600 * q.time.hour + 60 * q.time.minute + q.time.second + δ) / 86400) := by
      have c1 := le_abs_self (T δ - 12)
      have c2 := neg_abs_le (T' δ' - 12)
      have t1 := hT δ
      have t2 := hT' δ'
      norm_num at *
      linarith
    obtain ⟨s, s', hs, hs', k1, k2⟩ := C105_between_solstices p q q' hd hd' c c' hc hc' y1 y2 y1' y2' N N' hN hN' δ δ' _ _ rfl w0 w1 rfl w0' w1'
      _ rfl (le_trans (by norm_num) big) k
    obtain rfl := Except.ok.inj (hr.symm.trans hs)
    obtain rfl := Except.ok.inj (hr'.symm.trans hs')
    generalize (N' : ℝ) + (3600 * q'.time.hour + 60 * q'.time.minute + q'.time.second + δ') / 86400 -
        (N + (3600 * q.time.hour + 60 * q.time.minute + q.time.second + δ) / 86400) = D at *
    constructor
    · intro i j
      have := (k1 i j).2
      clear * - this big
      norm_num at *; linarith
    · intro i j
      have := (k2 i j).2
      clear * - this big
      norm_num at *; linarith
  constructor
  · intro hs
    obtain ⟨⟨a', r', ha', hr', hz'⟩, -⟩ := C100_noon_and_midnight p q' hd' c' hc' N' hN' (by rw [hpos]; exact h2) T' (by rw [hpos]; exact hT') 0
      (by rw [hpos, abs_le]; push_cast; constructor <;> linarith [hl.1, hl.2])
    rw [Int.cast_zero, mul_zero, sub_zero] at ha'
    rw [hpos] at hz'
    refine ⟨a', r', ha', hr', fun δ hδ => ?_⟩
    obtain ⟨r, hr, hz, -⟩ := C100_between p q hd c hc δ N hN (B δ hδ) h2
    refine ⟨r, hr, ?_⟩
    have ha2 := ha'.trans (show (0.5 : ℝ) ≤ 1.5 by norm_num)
    obtain ⟨k1, k2⟩ := step δ a' hδ ha2 (by norm_num at *; linarith) r r' hr hr'
    refine noon_step (tropic hd hc hN (B δ hδ) hr) (tropic hd' hc' hN' (B' a' ha2) hr') ?_ hz hz'
    rcases hs with ⟨i, j, l⟩ | ⟨i, j, l⟩
    · exact .inl ⟨lat24 i, k1 j l⟩
    · exact .inr ⟨lat24' i, k2 j l⟩
  · intro hs
    obtain ⟨⟨a, r, ha, hr, hz⟩, -⟩ := C100_noon_and_midnight p q hd c hc N hN h2 T hT 0
      (by rw [abs_le]; push_cast; constructor <;> linarith [hl.1, hl.2])
    rw [Int.cast_zero, mul_zero, sub_zero] at ha
    refine ⟨a, r, ha, hr, fun δ hδ => ?_⟩
    obtain ⟨r', hr', hz', -⟩ := C100_between p q' hd' c' hc' δ N' hN' (B' δ hδ) (by rw [hpos]; exact h2)
    rw [hpos] at hz'
    refine ⟨r', hr', ?_⟩
    have ha2 := ha.trans (show (0.5 : ℝ) ≤ 1.5 by norm_num)
    obtain ⟨k1, k2⟩ := step a δ ha2 hδ (by norm_num at *; linarith) r r' hr hr'
    refine noon_step (tropic hd' hc' hN' (B' δ hδ) hr') (tropic hd hc hN (B a ha2) hr) ?_ hz' hz
    rcases hs with ⟨i, j, l⟩ | ⟨i, j, l⟩
    · exact .inr ⟨lat24' i, k1 j l⟩
    · exact .inl ⟨lat24 i, k2 j l⟩

/-- Greenwich on 1 and 2 March 2024. -/
example : ∃ q : ℤ → SunAngleParameters ℝ, (∀ d, (q d).date = ⟨2024, 3, d⟩ ∧ (q d).position = ⟨0, 51.5, 0⟩) ∧
    (∀ d ∈ [(1 : ℤ), 2], GoodDate (q d).date ∧ Rising 2024 2024 3 d ∧ ∃ c, SunAngleCalculator.new .checked (q d) = .ok c) ∧
    |(0 : ℝ)| ≤ 180 ∧ (24 : ℝ) ≤ |51.5| ∧ |(51.5 : ℝ)| ≤ 90 := by
  refine ⟨fun d => { SunAngleParameters.default with date := ⟨2024, 3, d⟩, position := ⟨0, 51.5, 0⟩ }, fun _ => ⟨rfl, rfl⟩, ?_,
    by norm_num, by norm_num, by norm_num⟩
  intro d hd
  have hg : GoodDate ⟨2024, 3, d⟩ ∧ Rising 2024 2024 3 d := by
    simp only [List.mem_cons, List.not_mem_nil, or_false] at hd
    rcases hd with rfl | rfl <;> exact ⟨⟨by decide, by decide, by decide⟩, by unfold Spec.Rising; decide⟩
  refine ⟨hg.1, hg.2, (C52_new_exact _ _ hg.1).1.mpr ?_⟩
  unfold SunAngleParameters.default HMS.toFractionOfDay
  norm_num

end Verif
