import Verif.Model.Ellipsoid
import Verif.Props.Common
import Verif.Float.Near
import Verif.Props.EarthAngle
import Mathlib.Analysis.Real.Pi.Bounds

/-!
# C49-C51: degree conversion
-/

namespace Verif
open Arith F64

/-- `rem_euclid` in exact arithmetic is the residue in `[0, y)`. -/
theorem remEuclid_real (x y : ℝ) (hy : 0 < y) :
    0 ≤ remEuclid x y ∧ remEuclid x y < y ∧ ∃ k : ℤ, remEuclid x y = x - y * k := by
  obtain ⟨h1, -, -⟩ := rem_real_bound x y hy
  rw [abs_lt] at h1
  unfold remEuclid
  simp only [lt_real, lit_real, Rat.cast_zero, abs_real, add_real, abs_of_pos hy]
  split
  · rename_i h
    refine ⟨by linarith, by linarith, truncR (x / y) - 1, ?_⟩
    rw [rem_real]; push_cast; ring
  · rename_i h
    exact ⟨not_lt.mp h, h1.2, truncR (x / y), rem_real x y⟩

theorem residue_unique {r s y : ℝ} {k : ℤ} (hr : 0 ≤ r ∧ r < y) (hs : 0 ≤ s ∧ s < y) (h : r = s - y * k) :
    r = s := by
  have hy : 0 < y := by linarith
  have k0 : k = 0 := by
    by_contra hk
    rcases lt_or_gt_of_ne hk with hk | hk
    · have : (k : ℝ) ≤ -1 := by exact_mod_cast Int.le_sub_one_of_lt hk
      nlinarith
    · have : (1 : ℝ) ≤ k := by exact_mod_cast hk
      nlinarith
  rw [h, k0]; simp

theorem degree_real : (DEGREE : ℝ) = Real.pi / 180 := by
  unfold DEGREE; simp

/-- The conversion in exact arithmetic. -/
theorem from_real (p : Profile) (g : Geodetic ℝ) :
    ∃ r : Geodetic360 ℝ, Geodetic360.fromGeodetic p g = .ok r ∧ r.height = g.height ∧
      (-180 ≤ r.lon ∧ r.lon < 180) ∧ (-90 ≤ r.lat ∧ r.lat < 90) ∧
      (∃ k : ℤ, r.lon = g.elong * 180 / Real.pi - 360 * k) ∧
      ∃ k : ℤ, r.lat = g.phi * 180 / Real.pi - 180 * k := by
  have pp := Real.pi_pos
  obtain ⟨a1, a2, a, a3⟩ := remEuclid_real (g.elong /. DEGREE +. lit 180) 360 (by norm_num)
  obtain ⟨b1, b2, b, b3⟩ := remEuclid_real (g.phi /. DEGREE +. lit 90) 180 (by norm_num)
  have l360 : (lit 360 : ℝ) = 360 := by norm_num
  have l180 : (lit 180 : ℝ) = 180 := by norm_num
  have l90 : (lit 90 : ℝ) = 90 := by norm_num
  have m180 : (lit (-180) : ℝ) = -180 := by norm_num
  have m90 : (lit (-90) : ℝ) = -90 := by norm_num
  unfold Geodetic360.fromGeodetic
  simp only [le_real]
  rw [l360, l180, l90, m180, m90]
  rw [l180] at a1 a2 a3
  rw [l90] at b1 b2 b3
  simp only [sub_real]
  set lon := remEuclid (g.elong /. DEGREE +. (180 : ℝ)) 360
  set lat := remEuclid (g.phi /. DEGREE +. (90 : ℝ)) 180
  rw [if_neg (fun h => h.2 ⟨by linarith, by linarith⟩), if_neg (fun h => h.2 ⟨by linarith, by linarith⟩)]
  refine ⟨_, rfl, rfl, ⟨by simp only; linarith, by simp only; linarith⟩,
    ⟨by simp only; linarith, by simp only; linarith⟩, ⟨a, ?_⟩, ⟨b, ?_⟩⟩
  · simp only
    rw [a3, degree_real, div_real, add_real]
    field_simp
    ring
  · simp only
    rw [b3, degree_real, div_real, add_real]
    field_simp
    ring

/-- **C49.** Ranges and congruence, for all real coordinates, in both profiles (no assertion fails). -/
theorem C49_range (p : Profile) (g : Geodetic ℝ) :
    ∃ r : Geodetic360 ℝ, Geodetic360.fromGeodetic p g = .ok r ∧
      -180 ≤ r.lon ∧ r.lon < 180 ∧ -90 ≤ r.lat ∧ r.lat < 90 ∧ r.height = g.height ∧
      (∃ k : ℤ, r.lon = g.elong * 180 / Real.pi - 360 * k) ∧
      ∃ k : ℤ, r.lat = g.phi * 180 / Real.pi - 180 * k := by
  obtain ⟨r, h1, h2, h3, h4, h5⟩ := from_real p g
  exact ⟨r, h1, h3.1, h3.2, h4.1, h4.2, h2, h5⟩

/-- **C49.** Converting to degrees and back gives the same point for longitudes in `[-π, π)` and latitudes in
`[-π/2, π/2)`. -/
theorem C49_round_trip (p : Profile) (g : Geodetic ℝ) (h1 : -Real.pi ≤ g.elong) (h2 : g.elong < Real.pi)
    (h3 : -(Real.pi / 2) ≤ g.phi) (h4 : g.phi < Real.pi / 2) :
    ∃ r, Geodetic360.fromGeodetic p g = .ok r ∧ Geodetic.from360 r = g ∧
      r.lon = g.elong * 180 / Real.pi ∧ r.lat = g.phi * 180 / Real.pi := by
  have pp := Real.pi_pos
  obtain ⟨r, e, e1, e2, e3, ⟨k, e4⟩, ⟨m, e5⟩⟩ := from_real p g
  have f1 : r.lon + 180 = g.elong * 180 / Real.pi + 180 := by
    refine residue_unique (y := 360) (k := k) ⟨by linarith [e2.1], by linarith [e2.2]⟩ ⟨?_, ?_⟩ (by rw [e4]; ring)
    · have : -180 ≤ g.elong * 180 / Real.pi := by rw [le_div_iff₀ pp]; linarith
      linarith
    · have : g.elong * 180 / Real.pi < 180 := by rw [div_lt_iff₀ pp]; linarith
      linarith
  have f2 : r.lat + 90 = g.phi * 180 / Real.pi + 90 := by
    refine residue_unique (y := 180) (k := m) ⟨by linarith [e3.1], by linarith [e3.2]⟩ ⟨?_, ?_⟩ (by rw [e5]; ring)
    · have : -90 ≤ g.phi * 180 / Real.pi := by rw [le_div_iff₀ pp]; linarith
      linarith
    · have : g.phi * 180 / Real.pi < 90 := by rw [div_lt_iff₀ pp]; linarith
      linarith
  have g1 : r.lon = g.elong * 180 / Real.pi := by linarith
  have g2 : r.lat = g.phi * 180 / Real.pi := by linarith
  refine ⟨r, e, ?_, g1, g2⟩
  unfold Geodetic.from360
  ext
  · simp only [mul_real, degree_real]; rw [g1]; field_simp
  · simp only [mul_real, degree_real]; rw [g2]; field_simp
  · exact e1

-- Paris
example : -Real.pi ≤ (0.041 : ℝ) ∧ (0.041 : ℝ) < Real.pi ∧ -(Real.pi / 2) ≤ (0.852 : ℝ) ∧
    (0.852 : ℝ) < Real.pi / 2 := by
  have := Real.pi_gt_three
  norm_num; refine ⟨?_, ?_, ?_, ?_⟩ <;> linarith

/-! ## C50 -/

/-- **C50** (finding). The north pole is converted to latitude `-90°`, in exact arithmetic and in `f64`; and it
is what `geocentric_to_geodetic` returns on the positive axis (C48_axis).  So `Geodetic360::from` does not
preserve the place. -/
theorem C50_north_pole_flips :
    (∀ (p : Profile) (l h : ℝ), ∃ r, Geodetic360.fromGeodetic p ⟨l, Real.pi / 2, h⟩ = .ok r ∧ r.lat = -90) ∧
    (∀ h : F64, Geodetic360.fromGeodetic .checked (⟨lit 0, Arith.pi /. lit 2, h⟩ : Geodetic F64) =
      .ok ⟨lit 0, lit (-90), h⟩) := by
  constructor
  · intro p l h
    have pp := Real.pi_pos
    obtain ⟨r, e, -, -, e3, -, ⟨m, e5⟩⟩ := from_real p ⟨l, Real.pi / 2, h⟩
    refine ⟨r, e, ?_⟩
    simp only at e5
    have e6 : r.lat = 90 - 180 * m := by rw [e5]; field_simp; ring
    have : r.lat + 90 = 0 :=
      residue_unique (y := 180) (k := m - 1) ⟨by linarith [e3.1], by linarith [e3.2]⟩
        ⟨le_refl _, by norm_num⟩ (by rw [e6]; push_cast; ring)
    linarith
  · intro h
    unfold Geodetic360.fromGeodetic
    have h1 : remEuclid ((lit 0 : F64) /. DEGREE +. lit 180) (lit 360) -. lit 180 = lit 0 := by decide +kernel
    have h2 : remEuclid ((Arith.pi : F64) /. lit 2 /. DEGREE +. lit 90) (lit 180) -. lit 90 = lit (-90) := by
      decide +kernel
    simp only [h1, h2]
    rw [if_neg (by decide +kernel), if_neg (by decide +kernel)]

/-- **C50.** Every other latitude of the normal range keeps its value, hence its hemisphere. -/
theorem C50_latitude_kept_partial (p : Profile) (g : Geodetic ℝ) (h3 : -(Real.pi / 2) ≤ g.phi)
    (h4 : g.phi < Real.pi / 2) :
    ∃ r, Geodetic360.fromGeodetic p g = .ok r ∧ r.lat = g.phi * 180 / Real.pi := by
  have pp := Real.pi_pos
  obtain ⟨r, e, -, -, e3, -, ⟨m, e5⟩⟩ := from_real p g
  refine ⟨r, e, ?_⟩
  have f2 : r.lat + 90 = g.phi * 180 / Real.pi + 90 := by
    refine residue_unique (y := 180) (k := m) ⟨by linarith [e3.1], by linarith [e3.2]⟩ ⟨?_, ?_⟩ (by rw [e5]; ring)
    · have : -90 ≤ g.phi * 180 / Real.pi := by rw [le_div_iff₀ pp]; linarith
      linarith
    · have : g.phi * 180 / Real.pi < 90 := by rw [div_lt_iff₀ pp]; linarith
      linarith
  linarith

/-- The south pole is allowed. -/
example : -(Real.pi / 2) ≤ -(Real.pi / 2) ∧ -(Real.pi / 2) < Real.pi / 2 := ⟨le_rfl, by linarith [Real.pi_pos]⟩

/-! ## C51 -/

theorem OVQ_eq : OVQ = (2 : ℚ) ^ 1024 := by
  unfold OVQ
  rw [OVN_eq, mul_div_cancel_right₀ _ U_pos.ne']

theorem pow_big : (2000 : ℚ) < 2 ^ 970 ∧ (1000 : ℚ) ≤ 2 ^ 1022 := by
  have h : (2 : ℚ) ^ 11 = 2048 := by norm_num
  have h1 : (2 : ℚ) ^ 11 ≤ 2 ^ 970 := pow_le_pow_right₀ (by norm_num) (by norm_num)
  have h2 : (2 : ℚ) ^ 11 ≤ 2 ^ 1022 := pow_le_pow_right₀ (by norm_num) (by norm_num)
  constructor
  · refine lt_of_lt_of_le ?_ h1; rw [h]; norm_num
  · refine le_trans ?_ h2; rw [h]; norm_num

/-- Adding a small number to a finite `f64` never overflows. -/
theorem finite_add_small {x y : F64} {a b : ℚ} (hx : Is x a) (hy : Is y b) (hb : |b| ≤ 1000) :
    Is (x +. y) (RN (a + b)) := by
  obtain ⟨g1, g2⟩ := pow_big
  by_cases ha : |a| ≤ 2 ^ 1022
  · refine hx.add hy (le_HUGE (k := 1023) ?_ (le_refl _))
    have t := abs_add_le a b
    have e : (2 : ℚ) ^ 1023 = 2 ^ 1022 + 2 ^ 1022 := by rw [pow_succ, mul_two]
    rw [e]
    clear e g1
    generalize (2 : ℚ) ^ 1022 = H at *
    linarith
  · refine hx.add' hy ?_
    push Not at ha
    have h1 : |RN (a + b) - (a + b)| ≤ 1000 := by
      have := RN_nearest (a + b) hx.rep
      rw [sub_add_cancel_left, abs_neg] at this
      exact this.trans hb
    have h2 : |a| ≤ 2 ^ 1024 - 2 ^ 970 := by
      obtain ⟨m, hm⟩ := hx.rep.dvd 969 (by norm_num) (by
        refine le_trans (le_of_eq ?_) ha.le
        rw [show (969 : ℤ) = ((969 : ℕ) : ℤ) from rfl, zpow_natCast, ← pow_add])
      have e : (2 : ℚ) ^ ((969 : ℤ) + 1) = 2 ^ 970 := by
        rw [show ((969 : ℤ) + 1) = ((970 : ℕ) : ℤ) from rfl, zpow_natCast]
      rw [e] at hm
      have e2 : (2 : ℚ) ^ 1024 = 2 ^ 54 * 2 ^ 970 := by rw [← pow_add]
      have hp : (0 : ℚ) < 2 ^ 970 := by positivity
      have h3 := hx.lt_OVQ
      rw [OVQ_eq, hm, abs_mul, abs_of_pos hp, e2] at h3
      rw [hm, abs_mul, abs_of_pos hp, e2]
      generalize (2 : ℚ) ^ 970 = H at *
      have h4 : |(m : ℚ)| < 2 ^ 54 := lt_of_mul_lt_mul_right h3 hp.le
      have h5 : |m| < 2 ^ 54 := by exact_mod_cast h4
      have h6 : |m| ≤ 2 ^ 54 - 1 := by omega
      have h7 : |(m : ℚ)| ≤ 2 ^ 54 - 1 := by exact_mod_cast h6
      nlinarith
    have h8 : |RN (a + b)| ≤ |a| + 2000 := by
      have t1 := abs_add_le (RN (a + b) - (a + b)) (a + b)
      have t2 := abs_add_le a b
      rw [sub_add_cancel] at t1
      linarith
    rw [OVQ_eq]
    generalize (2 : ℚ) ^ 970 = H at *
    generalize (2 : ℚ) ^ 1024 = K at *
    linarith

/-- `rem_euclid` by a small positive integer in `f64` lands in `[0, m]`, end included. -/
theorem remEuclid_f64 {x y : F64} {a : ℚ} {m : ℤ} (hx : Is x a) (hy : Is y m) (m0 : 0 < m) (m1 : m ≤ 1000) :
    ∃ r, Is (remEuclid x y) r ∧ 0 ≤ r ∧ r ≤ m := by
  have l0 : Is (lit 0 : F64) 0 := by
    have := Is.lit_int 0 (by norm_num); push_cast at this; exact this
  have mq : (0 : ℚ) < m := by exact_mod_cast m0
  have mq' : (m : ℚ) ≤ 1000 := by exact_mod_cast m1
  have hr := hx.rem hy mq.ne'
  obtain ⟨b1, -, -⟩ := remQ_bound a m mq
  set r := a - m * truncQ (a / m)
  rw [abs_lt] at b1
  unfold remEuclid
  simp only
  by_cases h : r < 0
  · rw [hr.lt l0, if_pos (by simpa using h)]
    have ya := hy.abs
    rw [abs_of_pos mq] at ya
    have e := hr.add ya (small_le_HUGE (by rw [abs_le]; norm_num; constructor <;> linarith))
    refine ⟨_, e, RN_nonneg (by linarith), RN_le_of_le hy.rep (by linarith)⟩
  · rw [hr.lt l0, if_neg (by simpa using h)]
    exact ⟨r, hr, not_lt.mp h, b1.2.le⟩

theorem degree_pos : ∃ d, Is (DEGREE : F64) d ∧ 1 / 64 ≤ d := by
  have h : isFin (DEGREE : F64) = true := by decide +kernel
  refine ⟨_, Is.self h, ?_⟩
  decide +kernel

theorem normalise_f64 {x : F64} (m : ℤ) (m0 : 0 < m) (m1 : m ≤ 400) (hx : isFin (x /. DEGREE) = true) :
    ∃ r, Is (remEuclid (x /. DEGREE +. lit (m : ℚ)) (lit ((2 * m : ℤ) : ℚ)) -. lit (m : ℚ)) r ∧ -m ≤ r ∧ r ≤ m := by
  have mq : (0 : ℚ) < m := by exact_mod_cast m0
  have mq' : (m : ℚ) ≤ 400 := by exact_mod_cast m1
  have lm : Is (lit (m : ℚ) : F64) m := Is.lit_int m (by rw [abs_of_pos m0]; norm_num; omega)
  have l2m : Is (lit ((2 * m : ℤ) : ℚ) : F64) (2 * m : ℤ) := Is.lit_int (2 * m) (by
    rw [abs_of_pos (by omega)]; norm_num; omega)
  have s := finite_add_small (Is.self hx) lm (by rw [abs_of_pos mq]; linarith)
  obtain ⟨r, hr, r0, r1⟩ := remEuclid_f64 s l2m (by omega) (by omega)
  push_cast at r1
  have e := hr.sub lm (small_le_HUGE (by rw [abs_le]; norm_num; constructor <;> linarith))
  refine ⟨_, e, ?_, RN_le_of_le lm.rep (by linarith)⟩
  have := lm.neg.rep
  exact le_RN_of_le this (by linarith)

theorem not_fin_normalise {x : F64} (hx : isFin x = false) (m n : F64) (hm : isFin m = true) :
    remEuclid (x +. m) n -. m = .nan := by
  have key : remEuclid (x +. m) n = .nan := by
    have h1 : isFin (x +. m) = false := by
      cases x with
      | nan => rfl
      | inf s => cases m <;> simp_all [Arith.add, F64.add, isFin]
      | fin s n h => simp [isFin] at hx
    have h2 : (x +. m) %. n = .nan := by
      cases h : (x +. m) with
      | nan => rfl
      | inf s => cases n <;> rfl
      | fin s n h' => rw [h] at h1; simp [isFin] at h1
    unfold remEuclid
    simp only [h2]
    rfl
  rw [key]; rfl

/-- **C51.** In a debug build the conversion succeeds exactly when neither coordinate divided by a degree is
NaN or infinite. -/
theorem C51_assertions_iff (g : Geodetic F64) :
    (∃ r, Geodetic360.fromGeodetic .checked g = .ok r) ↔
      isFin (g.elong /. DEGREE) = true ∧ isFin (g.phi /. DEGREE) = true := by
  constructor
  · rintro ⟨r, h⟩
    by_contra hn
    have nl : ∀ q : ℚ, ((lit q : F64) <=. (.nan : F64)) = false := by
      intro q; cases (lit q : F64) <;> rfl
    unfold Geodetic360.fromGeodetic at h
    simp only at h
    by_cases h1 : isFin (g.elong /. DEGREE) = true
    · have h2 : isFin (g.phi /. DEGREE) = false := by
        by_contra h2; rw [Bool.not_eq_false] at h2; exact hn ⟨h1, h2⟩
      rw [not_fin_normalise h2 _ _ (by decide +kernel)] at h
      split at h
      · cases h
      · rw [if_pos ⟨trivial, fun hh => by rw [nl] at hh; exact absurd hh.1 (by simp)⟩] at h; cases h
    · rw [Bool.not_eq_true] at h1
      rw [not_fin_normalise h1 _ _ (by decide +kernel)] at h
      rw [if_pos ⟨trivial, fun hh => by rw [nl] at hh; exact absurd hh.1 (by simp)⟩] at h; cases h
  · rintro ⟨h1, h2⟩
    obtain ⟨r, hr, r0, r1⟩ := normalise_f64 180 (by norm_num) (by norm_num) h1
    obtain ⟨s, hs, s0, s1⟩ := normalise_f64 90 (by norm_num) (by norm_num) h2
    have l180 : Is (lit 180 : F64) 180 := by
      have := Is.lit_int 180 (by norm_num); push_cast at this; exact this
    have l90 : Is (lit 90 : F64) 90 := by
      have := Is.lit_int 90 (by norm_num); push_cast at this; exact this
    have m180 : Is (lit (-180) : F64) (-180) := by
      have := Is.lit_int (-180) (by norm_num); push_cast at this; exact this
    have m90 : Is (lit (-90) : F64) (-90) := by
      have := Is.lit_int (-90) (by norm_num); push_cast at this; exact this
    norm_num at hr r0 r1 hs s0 s1
    unfold Geodetic360.fromGeodetic
    simp only
    rw [m180.le hr, hr.le l180, m90.le hs, hs.le l90]
    simp [r0, r1, s0, s1]

/-- **C51.** No finite coordinates of magnitude up to `1e300` trip an assertion. -/
theorem C51_no_panic (g : Geodetic F64) (x y : ℚ) (hx : Is g.elong x) (hy : Is g.phi y)
    (h1 : |x| ≤ 10 ^ 300) (h2 : |y| ≤ 10 ^ 300) (p : Profile) :
    ∃ r, Geodetic360.fromGeodetic p g = .ok r := by
  have key : ∀ (z : F64) (q : ℚ), Is z q → |q| ≤ 10 ^ 300 → isFin (z /. DEGREE) = true := by
    intro z q hz hq
    obtain ⟨d, hd, d0⟩ := degree_pos
    have dp : 0 < d := by linarith [show (0 : ℚ) < 1 / 64 by norm_num]
    have := hz.div hd dp.ne' (le_HUGE (k := 1010) (by
      rw [abs_div, abs_of_pos dp, div_le_iff₀ dp]
      have h3 : (10 : ℚ) ^ 300 ≤ 2 ^ 1010 * (1 / 64) := by
        have e1 : (10 : ℚ) ^ 300 = (10 ^ 3) ^ 100 := by rw [← pow_mul]
        have e2 : (2 : ℚ) ^ 1010 = (2 ^ 10) ^ 100 * 1024 := by
          rw [show (1024 : ℚ) = 2 ^ 10 by norm_num, ← pow_mul, ← pow_add]
        have e3 : ((10 : ℚ) ^ 3) ^ 100 ≤ (2 ^ 10) ^ 100 := pow_le_pow_left₀ (by positivity) (by norm_num) 100
        rw [e1, e2]
        clear e1 e2 hq h1 h2
        generalize ((10 : ℚ) ^ 3) ^ 100 = A at *
        have : (0 : ℚ) < (2 ^ 10) ^ 100 := by positivity
        generalize ((2 : ℚ) ^ 10) ^ 100 = B at *
        linarith
      have h4 : (2 : ℚ) ^ 1010 * (1 / 64) ≤ 2 ^ 1010 * d := mul_le_mul_of_nonneg_left d0 (by positivity)
      exact hq.trans (h3.trans h4)) (by norm_num))
    exact this.1
  cases p with
  | checked => exact (C51_assertions_iff g).mpr ⟨key _ _ hx h1, key _ _ hy h2⟩
  | wrapping => exact ⟨_, by unfold Geodetic360.fromGeodetic; simp; rfl⟩

/-- A thousand turns. -/
example : Is (lit 6283 : F64) 6283 ∧ |(6283 : ℚ)| ≤ 10 ^ 300 := by
  refine ⟨by have := Is.lit_int 6283 (by norm_num); push_cast at this; exact this, ?_⟩
  rw [abs_of_pos (by norm_num)]
  exact le_trans (by norm_num : (6283 : ℚ) ≤ 10 ^ 4) (pow_le_pow_right₀ (by norm_num) (by norm_num))

/-- **C51** (finding). NaN panics in a debug build and passes through in a release build; and the documented
range `lon < 180` is false: just below `-π` the result is `180.0`. -/
theorem C51_witnesses :
    Geodetic360.fromGeodetic .checked (⟨.nan, lit 0, lit 0⟩ : Geodetic F64) = .error .assert ∧
    Geodetic360.fromGeodetic .wrapping (⟨.nan, lit 0, lit 0⟩ : Geodetic F64) = .ok ⟨.nan, lit 0, lit 0⟩ ∧
    Geodetic360.fromGeodetic .checked (⟨lit (-3.1415926535897936), lit 0, lit 0⟩ : Geodetic F64) =
      .ok ⟨lit 180, lit 0, lit 0⟩ := by
  decide +kernel

end Verif
