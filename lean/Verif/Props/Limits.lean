import Verif.Props.HMS
import Verif.Props.Geodetic360
import Verif.Props.SunAccuracy

/-!
# Where exactly rounding crosses the end of a range (C07, C15, C26, C50)
-/

namespace Verif
open Arith Spec F64

/-- Numbers not above a representable `t` round to `t` exactly from the midpoint on, when the midpoint does. -/
theorem RN_top {t u y : ℚ} (ht : RepQ t) (hs : RepQ (t - u)) (u0 : 0 < u) (hm : RN (t - u / 2) = t) (hy : y ≤ t) :
    RN y = t ↔ t - u / 2 ≤ y := by
  constructor
  · intro h
    by_contra hn
    push Not at hn
    rcases le_total y (t - u) with h1 | h1
    · have := RN_le_of_le hs h1
      linarith
    · have h2 := RN_nearest y hs
      rw [h, abs_of_nonneg (by linarith), abs_of_nonpos (by linarith)] at h2
      linarith
  · intro h
    exact le_antisymm (RN_le_of_le ht hy) (hm ▸ RN_mono h)

/-- What a computed sum says about rounding. -/
theorem RN_of_add {x y z : F64} {a b c : ℚ} (hx : Is x a) (hy : Is y b) (hz : Is z c) (h : x +. y = z) : RN (a + b) = c := by
  have := hx.add_of_fin hy (by rw [h]; exact hz.fin)
  rw [h] at this
  exact this.unique hz

/-! ## C26 -/

theorem two_pi_val : Is (TWO_PI : F64) (7074237752028440 / 2 ^ 50) := by
  have e : (TWO_PI : F64) = lit (7074237752028440 / 2 ^ 50) := by decide +kernel
  rw [e]
  exact Is.lit_exact _ (by have := RepQ.dyadic 7074237752028440 50 (by norm_num) (by norm_num); push_cast at this; exact this)
    (small_le_HUGE (by rw [abs_of_nonneg (by norm_num)]; norm_num))

/-- **C26.** The exact limits of the half-open range in `f64`.  For every finite argument `a` the result is `TWO_PI` itself if
and only if `a` is negative and within `2^-51` below a multiple of (the f64) `TWO_PI`; in every other case it is less. -/
theorem C26_anp_two_pi_iff (x : F64) (a : ℚ) (hx : Is x a) (t : ℚ) (ht : t = 7074237752028440 / 2 ^ 50) :
    Is (TWO_PI : F64) t ∧ ∃ r : ℚ, Is (anp x) r ∧ r ≤ t ∧
      (r = t ↔ a < 0 ∧ ∃ k : ℤ, k * t - 1 / 2 ^ 51 ≤ a ∧ a < k * t) := by
  have it := two_pi_val
  rw [← ht] at it
  have tp : (0 : ℚ) < t := by rw [ht]; norm_num
  have t6 : (6 : ℚ) < t := by rw [ht]; norm_num
  refine ⟨it, ?_⟩
  have hr := hx.rem it tp.ne'
  obtain ⟨b1, b2, b3⟩ := remQ_bound a t tp
  have hz : Is (lit 0 : F64) 0 := by
    have := Is.lit_int 0 (by norm_num); push_cast at this; exact this
  set w := a - t * truncQ (a / t) with hw
  rw [abs_lt] at b1
  -- the remainder of a number just below a multiple
  have key : a < 0 → ∀ k : ℤ, k * t - 1 / 2 ^ 51 ≤ a → a < k * t → w = a - k * t := by
    intro a0 k k1 k2
    have w0 := b3 a0.le
    have e : (k - truncQ (a / t) : ℤ) * t = w - (a - k * t) := by rw [hw]; push_cast; ring
    have h1 : ((k - truncQ (a / t) : ℤ) : ℚ) * t < 1 * t := by rw [e]; norm_num at k1 ⊢; linarith
    have h2 : (-1 : ℚ) * t < ((k - truncQ (a / t) : ℤ) : ℚ) * t := by rw [e]; linarith
    have h1 := lt_of_mul_lt_mul_right h1 tp.le
    have h2 := lt_of_mul_lt_mul_right h2 tp.le
    have h1 : k - truncQ (a / t) < 1 := by exact_mod_cast h1
    have h2 : -1 < k - truncQ (a / t) := by exact_mod_cast h2
    have h3 : k - truncQ (a / t) = 0 := by omega
    rw [h3] at e
    push_cast at e
    linarith
  unfold anp
  simp only
  by_cases h : w < 0
  · rw [if_pos ((hr.lt hz).trans (by simpa using h))]
    have a0 : a < 0 := by
      by_contra hn
      linarith [b2 (not_lt.mp hn)]
    refine ⟨_, hr.add it (small_le_HUGE (by rw [abs_le]; norm_num; constructor <;> linarith [show t < 7 by rw [ht]; norm_num])),
      RN_le_of_le it.rep (by linarith), ?_⟩
    rw [RN_top (u := 1 / 2 ^ 50) it.rep (by
        have := RepQ.dyadic 7074237752028439 50 (by norm_num) (by norm_num)
        rw [ht]; norm_num at this ⊢; exact this) (by norm_num) (by
        have h1 : Is (lit (-(1 / 2 ^ 51)) : F64) (-(1 / 2 ^ 51)) := by
          refine Is.lit_exact _ ?_ (small_le_HUGE (by rw [abs_neg, abs_of_nonneg (by norm_num)]; norm_num))
          have := RepQ.dyadic (-1) 51 (by norm_num) (by norm_num)
          norm_num at this ⊢; exact this
        have := RN_of_add it h1 it (by decide +kernel)
        rw [show t - 1 / 2 ^ 50 / 2 = t + -(1 / 2 ^ 51) by norm_num; ring]
        exact this) (by linarith : w + t ≤ t)]
    constructor
    · intro h1
      refine ⟨a0, truncQ (a / t), ?_, ?_⟩
      · have : a = w + t * truncQ (a / t) := by rw [hw]; ring
        norm_num at h1 ⊢
        linarith
      · have : a = w + t * truncQ (a / t) := by rw [hw]; ring
        linarith
    · rintro ⟨-, k, k1, k2⟩
      rw [key a0 k k1 k2]
      norm_num at k1 ⊢
      linarith
  · rw [if_neg (by rw [hr.lt hz]; simpa using h)]
    refine ⟨w, hr, b1.2.le, ⟨fun e => absurd e b1.2.ne, ?_⟩⟩
    rintro ⟨a0, k, k1, k2⟩
    have := key a0 k k1 k2
    exact absurd (show w < 0 by linarith) h

/-- The argument of the witness of `C26_anp_half_open_false` is within the limits, and -1e-15 is not. -/
example : (-1e-20 : ℚ) < 0 ∧ ((0 : ℤ) : ℚ) * (7074237752028440 / 2 ^ 50) - 1 / 2 ^ 51 ≤ -1e-20 ∧
    ¬ ((0 : ℤ) : ℚ) * (7074237752028440 / 2 ^ 50) - 1 / 2 ^ 51 ≤ (-1e-15 : ℚ) := by norm_num

/-! ## C15 -/

/-- **C15.** In `f64` the hour and the minute survive the round trip whenever the second is at least `3·2^-37` (22 ps) away from
both ends of the minute, and the second is then within that of what it was. -/
theorem C15_hour_and_minute_kept (h m : ℤ) (s : F64) (h0 : 0 ≤ h) (h1 : h ≤ 23) (m0 : 0 ≤ m) (m1 : m ≤ 59) (hs : isFin s = true)
    (s0 : 3 / 2 ^ 37 ≤ v s) (s1 : v s < 60 - 3 / 2 ^ 37) :
    ∃ s' : F64, HMS.fromFractionOfDay (HMS.toFractionOfDay (⟨h, m, s⟩ : HMS F64)) = .ok ⟨h, m, s'⟩ ∧ isFin s' = true ∧
      |v s' - v s| ≤ 3 / 2 ^ 37 := by
  obtain ⟨h', m', s', e, hb⟩ := C15_hms_round_trip_f64_partial h m s h0 h1 m0 m1 hs (le_trans (by norm_num) s0)
    (lt_of_lt_of_le s1 (by norm_num))
  have hf : ∃ f : F64, f = HMS.toFractionOfDay (⟨h, m, s⟩ : HMS F64) := ⟨_, rfl⟩
  obtain ⟨f, ef⟩ := hf
  rw [← ef] at e ⊢
  have fr : isFin f = true ∧ 0 ≤ v f ∧ v f ≤ 1 := by
    have is := Is.self hs
    have im := minutes_exact h m h0 (by omega) m0 m1
    have k0 : (0 : ℚ) ≤ ((60 * m + 3600 * h : ℤ) : ℚ) := by exact_mod_cast (by omega)
    have k1 : ((60 * m + 3600 * h : ℤ) : ℚ) ≤ 86340 := by exact_mod_cast (by omega)
    have s0' : 0 ≤ v s := le_trans (by norm_num) s0
    have s1' : v s < 60 := lt_of_lt_of_le s1 (by norm_num)
    have it := is.add im (small_le_HUGE (by
      rw [abs_of_nonneg (by linarith)]; norm_num at k1 ⊢; linarith))
    generalize ((60 * m + 3600 * h : ℤ) : ℚ) = K at *
    have t0 : 0 ≤ RN (v s + K) := RN_nonneg (by linarith)
    have t1 : RN (v s + K) ≤ 86400 := RN_le_of_le (by
      have := RepQ.int 86400 (by norm_num)
      push_cast at this; exact this) (by linarith)
    have q0 : 0 ≤ RN (v s + K) / 86400 := by positivity
    have q1 : RN (v s + K) / 86400 ≤ 1 := by rw [div_le_one (by norm_num)]; exact t1
    have iq := it.div lit86400_is (by norm_num) (small_le_HUGE (by
      rw [abs_of_nonneg q0]; norm_num; linarith))
    have : Is f (RN (RN (v s + K) / 86400)) := by rw [ef]; exact iq
    refine ⟨this.fin, ?_, ?_⟩
    · rw [this.val]; exact RN_nonneg q0
    · rw [this.val]
      exact RN_le_of_le (by have := RepQ.int 1 (by norm_num); push_cast at this; exact this) q1
  obtain ⟨h2, m2, s2, e2, -, -, g1, g2, g3, g4, g5, -, -⟩ := C13_fields_in_range f fr.1 fr.2.1 fr.2.2
  rw [e] at e2
  simp only [Except.ok.injEq, HMS.mk.injEq] at e2
  obtain ⟨rfl, rfl, rfl⟩ := e2
  rw [abs_le] at hb
  have d1 : ((60 * h' + m' : ℤ) : ℚ) < ((60 * h + m + 1 : ℤ) : ℚ) := by
    by_contra hn
    push Not at hn
    push_cast at hn
    norm_num at hb s1 ⊢
    linarith [hb.2]
  have d2 : ((60 * h + m - 1 : ℤ) : ℚ) < ((60 * h' + m' : ℤ) : ℚ) := by
    by_contra hn
    push Not at hn
    push_cast at hn
    norm_num at hb s0 ⊢
    linarith [hb.1]
  have d1' : 60 * h' + m' < 60 * h + m + 1 := by exact_mod_cast d1
  have d2' : 60 * h + m - 1 < 60 * h' + m' := by exact_mod_cast d2
  have eh : h' = h := by omega
  have em : m' = m := by omega
  subst eh em
  refine ⟨s', e, g3, ?_⟩
  rw [abs_le]
  constructor <;> linarith [hb.1, hb.2]

/-- Half past six and twelve seconds and a quarter. -/
example : isFin (lit 12.25 : F64) = true ∧ 3 / 2 ^ 37 ≤ v (lit 12.25 : F64) ∧ v (lit 12.25 : F64) < 60 - 3 / 2 ^ 37 := by
  decide +kernel

/-! ## C50 -/

theorem half_pi_val : Is ((Arith.pi : F64) /. lit 2) (7074237752028440 / 2 ^ 52) := by
  have e : ((Arith.pi : F64) /. lit 2) = lit (7074237752028440 / 2 ^ 52) := by decide +kernel
  rw [e]
  exact Is.lit_exact _ (by have := RepQ.dyadic 7074237752028440 52 (by norm_num) (by norm_num); push_cast at this; exact this)
    (small_le_HUGE (by rw [abs_of_nonneg (by norm_num)]; norm_num))

theorem degree_val : Is (DEGREE : F64) (5030569068109113 / 2 ^ 58) := by
  have e : (DEGREE : F64) = lit (5030569068109113 / 2 ^ 58) := by decide +kernel
  rw [e]
  exact Is.lit_exact _ (by have := RepQ.dyadic 5030569068109113 58 (by norm_num) (by norm_num); push_cast at this; exact this)
    (small_le_HUGE (by rw [abs_of_nonneg (by norm_num)]; norm_num))

/-- What a computed quotient says about rounding. -/
theorem RN_of_div {x y z : F64} {a b c : ℚ} (hx : Is x a) (hy : Is y b) (hz : Is z c) (hb : b ≠ 0) (hs : |a / b| ≤ HUGE)
    (h : x /. y = z) : RN (a / b) = c := by
  have := hx.div hy hb hs
  rw [h] at this
  exact this.unique hz

theorem dy_lit (m : ℤ) (k : ℕ) (hm : |m| ≤ 2 ^ 53) (hk : k ≤ 1074) : Is (lit ((m : ℚ) / 2 ^ k) : F64) (m / 2 ^ k) := by
  refine Is.lit_exact _ (RepQ.dyadic m k hm hk) (small_le_HUGE ?_)
  rw [abs_div, abs_of_pos (by positivity : (0 : ℚ) < 2 ^ k)]
  have h1 : |(m : ℚ)| ≤ 2 ^ 53 := by exact_mod_cast hm
  refine (div_le_self (abs_nonneg _) (one_le_pow₀ (by norm_num))).trans (h1.trans (by norm_num))

/-- **C50.** The exact limits of the finding in `f64`: among all latitudes from `-π/2` to `π/2` (as f64), the two largest, `π/2`
and the number before it, are converted to `-90` degrees, and no other is moved: every other one is converted to within `1e-13`
degrees. -/
theorem C50_flips_iff_f64 (p : Profile) (g : Geodetic F64) (l x : ℚ) (hl : Is g.elong l) (hx : Is g.phi x) (l1 : |l| ≤ 10 ^ 300)
    (hp : ℚ) (ehp : hp = 7074237752028440 / 2 ^ 52) (x1 : |x| ≤ hp) :
    Is ((Arith.pi : F64) /. lit 2) hp ∧ ∃ (r : Geodetic360 F64) (q : ℚ), Geodetic360.fromGeodetic p g = .ok r ∧ Is r.lat q ∧
      (hp - 1 / 2 ^ 52 ≤ x → q = -90) ∧ (x < hp - 1 / 2 ^ 52 → |(q : ℝ) - x * (180 / Real.pi)| ≤ 1e-13) := by
  have ip := half_pi_val
  rw [← ehp] at ip
  refine ⟨ip, ?_⟩
  have hp2 : hp < 2 := by rw [ehp]; norm_num
  obtain ⟨r, hr⟩ := C51_no_panic g l x hl hx l1 (x1.trans (hp2.le.trans (le_trans (by norm_num : (2 : ℚ) ≤ 10 ^ 1)
    (pow_le_pow_right₀ (by norm_num) (by norm_num))))) p
  have hlat : r.lat = remEuclid (g.phi /. DEGREE +. lit 90) (lit 180) -. lit 90 := by
    unfold Geodetic360.fromGeodetic at hr
    simp only at hr
    split at hr
    · cases hr
    · split at hr
      · cases hr
      · cases hr; rfl
  have id := degree_val
  obtain ⟨d, ed⟩ : ∃ d : ℚ, d = 5030569068109113 / 2 ^ 58 := ⟨_, rfl⟩
  rw [← ed] at id
  have d0 : 0 < d := by rw [ed]; norm_num
  have d1 : 1 / 60 < d := by rw [ed]; norm_num
  have xd : |x / d| ≤ 120 := by
    rw [abs_div, abs_of_pos d0, div_le_iff₀ d0]
    linarith
  have iy := hx.div id d0.ne' (small_le_HUGE (xd.trans (by norm_num)))
  have i90 : Is (lit 90 : F64) 90 := by have := Is.lit_int 90 (by norm_num); push_cast at this; exact this
  have i180 : Is (lit 180 : F64) 180 := by have := Is.lit_int 180 (by norm_num); push_cast at this; exact this
  have i0 : Is (lit 0 : F64) 0 := by have := Is.lit_int 0 (by norm_num); push_cast at this; exact this
  -- values at the end of the range
  have big : ∀ m : ℤ, |m| ≤ 2 ^ 53 → |(m / 2 ^ 52 : ℚ) / d| ≤ HUGE := by
    intro m hm
    have h1 : |(m : ℚ)| ≤ 2 ^ 53 := by exact_mod_cast hm
    refine small_le_HUGE ?_
    rw [abs_div, abs_div, abs_of_pos d0, abs_of_pos (by positivity : (0 : ℚ) < 2 ^ 52), div_le_iff₀ d0, div_le_iff₀ (by positivity)]
    norm_num at h1 ⊢
    linarith
  have e0 : RN (hp / d) = 90 := by
    rw [ehp]
    have := RN_of_div (dy_lit 7074237752028440 52 (by norm_num) (by norm_num)) id i90 d0.ne' (big _ (by norm_num)) (by decide +kernel)
    push_cast at this
    exact this
  have e1 : RN ((hp - 1 / 2 ^ 52) / d) = 90 - 1 / 2 ^ 46 := by
    rw [ehp]
    have := RN_of_div (dy_lit 7074237752028439 52 (by norm_num) (by norm_num)) id (dy_lit (90 * 2 ^ 46 - 1) 46 (by norm_num) (by norm_num)) d0.ne'
      (big _ (by norm_num)) (by decide +kernel)
    push_cast at this
    norm_num at this ⊢
    exact this
  have e2 : RN ((hp - 2 / 2 ^ 52) / d) = 90 - 2 / 2 ^ 46 := by
    rw [ehp]
    have := RN_of_div (dy_lit 7074237752028438 52 (by norm_num) (by norm_num)) id (dy_lit (90 * 2 ^ 46 - 2) 46 (by norm_num) (by norm_num)) d0.ne'
      (big _ (by norm_num)) (by decide +kernel)
    push_cast at this
    norm_num at this ⊢
    exact this
  rw [abs_le] at x1
  have y1 : RN (x / d) ≤ 90 := e0 ▸ RN_mono (div_le_div_of_nonneg_right x1.2 d0.le)
  have y0 : -90 ≤ RN (x / d) := by
    have := RN_mono (div_le_div_of_nonneg_right x1.1 d0.le)
    rwa [neg_div, RN_neg, e0] at this
  have ey := RN_err_grid (x / d) (-46) (by norm_num) (xd.trans (by norm_num))
  have iz := iy.add i90 (small_le_HUGE (by rw [abs_of_nonneg (by linarith)]; norm_num; linarith))
  have top := RN_top (t := 180) (u := 1 / 2 ^ 45) (y := RN (x / d) + 90) i180.rep (by
      have := RepQ.dyadic (180 * 2 ^ 45 - 1) 45 (by norm_num) (by norm_num)
      norm_num at this ⊢; exact this) (by norm_num) (by
      have := RN_of_add (dy_lit (90 * 2 ^ 46 - 1) 46 (by norm_num) (by norm_num)) i90 i180 (by decide +kernel)
      norm_num at this ⊢; exact this) (by linarith)
  have ez := RN_err_grid (RN (x / d) + 90) (-45) (by norm_num) (by rw [abs_of_nonneg (by linarith)]; norm_num; linarith)
  have z1 : RN (RN (x / d) + 90) ≤ 180 := RN_le_of_le i180.rep (by linarith)
  have z0 : 0 ≤ RN (RN (x / d) + 90) := RN_nonneg (by linarith)
  have irem := iz.rem i180 (by norm_num)
  have hcase : hp - 1 / 2 ^ 52 ≤ x ↔ RN (RN (x / d) + 90) = 180 := by
    rw [top]
    constructor
    · intro h
      have := RN_mono (div_le_div_of_nonneg_right h d0.le)
      rw [e1] at this
      norm_num at this ⊢
      linarith
    · intro h
      by_contra hn
      push Not at hn
      have h2 : x ≤ hp - 2 / 2 ^ 52 := by
        rcases le_total |x| 1 with h3 | h3
        · refine (le_abs_self x).trans (h3.trans ?_)
          rw [ehp]; norm_num
        · obtain ⟨m, hm⟩ := hx.rep.dvd (-53) (by norm_num) (by norm_num; exact h3)
          have hm' : x = m / 2 ^ 52 := by rw [hm]; norm_num; ring
          rw [hm', ehp] at hn ⊢
          rw [lt_sub_iff_add_lt, ← add_div, div_lt_div_iff_of_pos_right (by positivity)] at hn
          have hn' : m + 1 < 7074237752028440 := by exact_mod_cast hn
          have hn2 : m + 2 ≤ 7074237752028440 := by omega
          rw [le_sub_iff_add_le, ← add_div, div_le_div_iff_of_pos_right (by positivity)]
          exact_mod_cast hn2
      have := RN_mono (div_le_div_of_nonneg_right h2 d0.le)
      rw [e2] at this
      norm_num at this h
      linarith
  by_cases hz : RN (RN (x / d) + 90) = 180
  · rw [hz] at irem
    have ir : Is ((g.phi /. DEGREE +. lit 90) %. lit 180) 0 := irem.congr (by
      rw [show (180 : ℚ) / 180 = ((1 : ℤ) : ℚ) by norm_num, truncQ_int]; norm_num)
    have iq : Is r.lat (-90) := by
      rw [hlat]
      unfold remEuclid
      simp only
      rw [if_neg (by rw [ir.lt i0]; simp)]
      have := ir.sub i90 (small_le_HUGE (by norm_num))
      rw [zero_sub, RN_exact i90.neg.rep] at this
      exact this
    exact ⟨r, -90, hr, iq, fun _ => rfl, fun h => absurd (hcase.mpr hz) (not_le.mpr h)⟩
  · have z1' := lt_of_le_of_ne z1 hz
    have ir : Is ((g.phi /. DEGREE +. lit 90) %. lit 180) (RN (RN (x / d) + 90)) := irem.congr (by
      have : truncQ (RN (RN (x / d) + 90) / 180) = 0 := by
        unfold truncQ
        rw [if_neg (not_lt.mpr (by positivity)), Int.floor_eq_zero_iff]
        exact ⟨by positivity, by rw [div_lt_one (by norm_num)]; exact z1'⟩
      rw [this]; simp)
    generalize RN (RN (x / d) + 90) = z at *
    have hq : |z - 90| ≤ 90 := by rw [abs_le]; constructor <;> linarith
    have iq : Is r.lat (RN (z - 90)) := by
      rw [hlat]
      unfold remEuclid
      simp only
      rw [if_neg (by rw [ir.lt i0]; simpa using z0)]
      exact ir.sub i90 (small_le_HUGE (hq.trans (by norm_num)))
    have eq := RN_err_grid (z - 90) (-46) (by norm_num) (hq.trans (by norm_num))
    refine ⟨r, RN (z - 90), hr, iq, fun h => absurd (hcase.mp h) hz, fun _ => ?_⟩
    have hsum : |RN (z - 90) - x / d| ≤ 3.6e-14 := by
      rw [abs_le] at ey ez eq ⊢
      norm_num at ey ez eq ⊢
      constructor <;> linarith [ey.1, ey.2, ez.1, ez.2, eq.1, eq.2]
    have hsum' : |((RN (z - 90) : ℚ) : ℝ) - x / d| ≤ 3.6e-14 := by
      have := (Rat.cast_le (K := ℝ)).mpr hsum
      push_cast at this
      norm_num at this ⊢
      exact this
    have dd : (d : ℝ) = 5030569068109113 / 2 ^ 58 := by rw [ed]; push_cast; rfl
    have xr : |(x : ℝ)| ≤ 2 := by
      have : |x| ≤ 2 := by rw [abs_le]; constructor <;> linarith
      exact_mod_cast this
    have p1 := Real.pi_gt_d20
    have p2 := Real.pi_lt_d20
    have hdd : |(x : ℝ) / d - x * (180 / Real.pi)| ≤ 5e-14 := by
      have e : (x : ℝ) / d - x * (180 / Real.pi) = x * ((Real.pi - 180 * d) / (d * Real.pi)) := by
        have : (d : ℝ) ≠ 0 := by rw [dd]; norm_num
        field_simp
      rw [e, abs_mul, abs_div, abs_of_pos (a := (d : ℝ) * Real.pi) (by rw [dd]; positivity)]
      have h1 : |Real.pi - 180 * d| ≤ 1e-15 := by
        rw [dd, abs_le]; norm_num at p1 p2 ⊢; constructor <;> linarith
      have h2 : 0.054 ≤ (d : ℝ) * Real.pi := by
        rw [dd]; norm_num at p1 ⊢; linarith
      have h3 : |Real.pi - 180 * d| / (d * Real.pi) ≤ 1e-15 / 0.054 := div_le_div₀ (by norm_num) h1 (by norm_num) h2
      refine (mul_le_mul xr h3 (by positivity) (by norm_num)).trans ?_
      norm_num
    have := abs_sub_le ((RN (z - 90) : ℚ) : ℝ) ((x : ℝ) / d) (x * (180 / Real.pi))
    norm_num at hsum' hdd this ⊢
    linarith

/-- 45 degrees north is not moved; 89.9999999999999 degrees north is. -/
example : |(7074237752028440 / 2 ^ 53 : ℚ)| ≤ 7074237752028440 / 2 ^ 52 ∧ (7074237752028440 / 2 ^ 53 : ℚ) < 7074237752028440 / 2 ^ 52 - 1 / 2 ^ 52 ∧
    (7074237752028440 / 2 ^ 52 - 1 / 2 ^ 52 : ℚ) ≤ 7074237752028439 / 2 ^ 52 := by
  rw [abs_of_nonneg (by norm_num)]; norm_num

/-! ## C07 -/

theorem half_val : Is (lit 0.5 : F64) (1 / 2) := by
  have := dy_lit 1 1 (by norm_num) (by norm_num)
  norm_num at this ⊢
  exact this

/-- The fraction computed by `split`. -/
theorem split_fraction {d1 d2 : F64} {a b : ℚ} (h1 : Is d1 a) (h2 : Is d2 b) (hb : |b| ≤ 2 ^ 100) (e2 f0 : ℚ)
    (he : e2 = RN (b - 1 / 2)) (hf : f0 = RN (a - truncQ a + (e2 - truncQ e2)) - truncQ (RN (a - truncQ a + (e2 - truncQ e2)))) :
    RepQ (e2 - truncQ e2) ∧ Is (GregorianDate.split d1 d2).2 (if f0 < 0 then RN (f0 + 1) else f0) := by
  have i0 : Is (lit 0 : F64) 0 := by have := Is.lit_int 0 (by norm_num); push_cast at this; exact this
  have i1 : Is (lit 1 : F64) 1 := by have := Is.lit_int 1 (by norm_num); push_cast at this; exact this
  have hd2 : Is (d2 -. lit 0.5) e2 := by
    rw [he]
    refine h2.sub half_val (small_le_HUGE ?_)
    rw [abs_le] at hb ⊢
    norm_num at hb ⊢
    constructor <;> linarith [hb.1, hb.2]
  obtain ⟨hf1, -⟩ := fract_f64 h1 i1
  obtain ⟨hf2, -⟩ := fract_f64 hd2 i1
  obtain ⟨a1, -, -⟩ := truncQ_spec a
  obtain ⟨b1, -, -⟩ := truncQ_spec e2
  have hS := hf1.add hf2 (small_le_HUGE (((abs_add_le _ _).trans (add_le_add a1.le b1.le)).trans (by norm_num)))
  have hF := (fract_f64 hS i1).1
  rw [← hf] at hF
  have b0 : |f0| < 1 := by rw [hf]; exact (truncQ_spec _).1
  refine ⟨hf2.rep, ?_⟩
  rw [abs_lt] at b0
  unfold GregorianDate.split
  simp only
  by_cases h : f0 < 0
  · rw [if_pos h, if_pos (by rw [hF.lt i0]; simpa using h)]
    exact hF.add i1 (small_le_HUGE (by rw [abs_le]; norm_num; constructor <;> linarith))
  · rw [if_neg h, if_neg (by rw [hF.lt i0]; simpa using h)]
    exact hF

/-- Accepted finite input has a sum in range. -/
theorem fromJulian_ok_range (p : Profile) (x y : F64) (hx : isFin x = true) (hy : isFin y = true) (d : GregorianDate) (f : F64)
    (h : GregorianDate.fromJulian p x y = .ok (.ok (d, f))) :
    ((GregorianDate.DJ_MIN : F64) <=. (x +. y)) = true ∧ ((x +. y) <=. (GregorianDate.DJ_MAX : F64)) = true := by
  by_cases hr : ((x +. y) <. (GregorianDate.DJ_MIN : F64) || (GregorianDate.DJ_MAX : F64) <. (x +. y)) = true
  · unfold GregorianDate.fromJulian at h
    simp only [hr, if_true] at h
    simp at h
  · rw [Bool.not_eq_true, Bool.or_eq_false_iff] at hr
    have hnn : (x +. y) ≠ F64.nan := by
      match x, y, hx, hy with
      | .fin s a _, .fin t b _, _, _ =>
        change F64.add _ _ ≠ _
        simp only [F64.add]
        split
        · unfold zero ofQuot mkFin; split <;> simp
        · unfold ofQuot mkFin; split <;> simp
    have tot : ∀ u w : F64, u ≠ F64.nan → isFin w = true → (u <. w) = false → (w <=. u) = true := by
      intro u w hu hw hlt
      match u, w, hw with
      | .nan, _, _ => exact absurd rfl hu
      | .inf true, .fin _ _ _, _ => simp [Arith.lt, F64.lt] at hlt
      | .inf false, .fin _ _ _, _ => rfl
      | .fin s a _, .fin t b _, _ =>
        change decide _ = false at hlt
        change decide _ = true
        simp at hlt ⊢; exact hlt
    have tot' : ∀ u w : F64, u ≠ F64.nan → isFin w = true → (w <. u) = false → (u <=. w) = true := by
      intro u w hu hw hlt
      match u, w, hw with
      | .nan, _, _ => exact absurd rfl hu
      | .inf false, .fin _ _ _, _ => simp [Arith.lt, F64.lt] at hlt
      | .inf true, .fin _ _ _, _ => rfl
      | .fin s a _, .fin t b _, _ =>
        change decide _ = false at hlt
        change decide _ = true
        simp at hlt ⊢; exact hlt
    exact ⟨tot _ _ hnn lit_neg32000_is.fin hr.1, tot' _ _ hnn lit_1e9_is.fin hr.2⟩

/-- The fraction comes from `split`. -/
theorem fraction_of_split (p : Profile) (x y : F64) (d : GregorianDate) (f : F64)
    (h : GregorianDate.fromJulian p x y = .ok (.ok (d, f))) :
    f = (GregorianDate.split (GregorianDate.order x y).1 (GregorianDate.order x y).2).2 := by
  unfold GregorianDate.fromJulian at h
  simp only at h
  split at h
  · simp at h
  · cases h1 : I32.add p (Arith.castSat (-2147483648) 2147483647
        (GregorianDate.split (GregorianDate.order x y).1 (GregorianDate.order x y).2).1) 1 with
    | error e => rw [h1, err_bind] at h; simp at h
    | ok jd =>
      rw [h1, ok_bind] at h
      cases h2 : GregorianDate.ofDay p jd with
      | error e => rw [h2, err_bind] at h; simp at h
      | ok d' =>
        rw [h2, ok_bind] at h
        simp [pure, Except.pure] at h
        exact h.2.symm

/-- **C07.** Where the fraction can be 1.  If the larger of the two numbers given to `from_julian` is a whole number and a half, as
in the pair `(2400000.5, MJD)` that `to_julian` returns, then for every finite other number the fraction is below 1, as documented. -/
theorem C07_fraction_below_one_mjd (p : Profile) (x y : F64) (a b : ℚ) (hx : Is x a) (hy : Is y b) (n : ℤ) (hn : max a b = n + 1 / 2)
    (d : GregorianDate) (f : F64) (h : GregorianDate.fromJulian p x y = .ok (.ok (d, f))) :
    isFin f = true ∧ 0 ≤ v f ∧ v f < 1 := by
  obtain ⟨hf, f0, f1⟩ := C07_fraction_le_one_partial p x y hx.fin hy.fin d f h
  refine ⟨hf, f0, lt_of_le_of_ne f1 ?_⟩
  obtain ⟨hlo, hhi⟩ := fromJulian_ok_range p x y hx.fin hy.fin d f h
  obtain ⟨-, -, -, -, -, -, -, -, -, -, hcl, r1, r2, -⟩ := fromJulian_f64 p hx hy hlo hhi
  rw [fraction_of_split p x y d f h]
  have key : ∀ (d1 d2 : F64) (a b : ℚ), Is d1 a → Is d2 b → b ≤ a → a = n + 1 / 2 → |a + b| ≤ 2 ^ 40 →
      v (GregorianDate.split d1 d2).2 ≠ 1 := by
    intro d1 d2 a b h1 h2 hba ha hab
    have hA : |a| < 2 ^ 52 := by
      by_contra hc
      push Not at hc
      obtain ⟨m, hm⟩ := h1.rep.dvd (-1) (by norm_num) (by norm_num at hc ⊢; exact hc)
      rw [ha] at hm
      norm_num at hm
      have : ((2 * n + 1 : ℤ) : ℚ) = ((2 * m : ℤ) : ℚ) := by push_cast; linarith
      have : 2 * n + 1 = 2 * m := by exact_mod_cast this
      omega
    have hB : |b| ≤ 2 ^ 100 := by
      rw [abs_lt] at hA
      rw [abs_le] at hab ⊢
      norm_num at hA hab ⊢
      constructor <;> linarith [hA.1, hA.2, hab.1, hab.2]
    obtain ⟨f2r, sp⟩ := split_fraction h1 h2 hB _ _ rfl rfl
    have e2neg : b ≤ -1 / 2 → RN (b - 1 / 2) ≤ 0 := fun h => RN_nonpos (by linarith)
    generalize RN (b - 1 / 2) = e2 at *
    obtain ⟨f2a, -, f2neg⟩ := truncQ_spec e2
    generalize e2 - truncQ e2 = f2 at *
    have f1c : a - truncQ a = 1 / 2 ∨ (a - truncQ a = -1 / 2 ∧ f2 ≤ 0) := by
      unfold truncQ
      rcases le_or_gt 0 n with h0 | h0
      · have h0' : (0 : ℚ) ≤ n := by exact_mod_cast h0
        left
        rw [if_neg (by rw [ha]; linarith), ha, Int.floor_intCast_add, show ⌊(1 / 2 : ℚ)⌋ = 0 by norm_num]
        push_cast; ring
      · have h0' : (n : ℚ) ≤ -1 := by exact_mod_cast (by omega : n ≤ -1)
        right
        refine ⟨?_, f2neg (e2neg (by linarith))⟩
        rw [if_pos (by rw [ha]; linarith), ha, show -((n : ℚ) + 1 / 2) = ((-n - 1 : ℤ) : ℚ) + 1 / 2 by push_cast; ring,
          Int.floor_intCast_add, show ⌊(1 / 2 : ℚ)⌋ = 0 by norm_num]
        push_cast; ring
    have ra : ∀ m : ℤ, |m| ≤ 2 ^ 53 → RepQ ((m : ℚ) / 2 ^ 1) := fun m hm => RepQ.dyadic m 1 hm (by norm_num)
    rw [abs_lt] at f2a
    -- the remainder is not just below zero
    have main : ∀ S f0 : ℚ, S = RN (a - truncQ a + f2) → f0 = S - truncQ S → f0 < 0 → f0 ≤ -(1 / 2 ^ 53) := by
      intro S f0 hS hf0 hneg
      obtain ⟨c1, c2, c3⟩ := truncQ_spec S
      have S0 : S < 0 := by
        by_contra hc
        have := c2 (not_lt.mp hc)
        rw [← hf0] at this
        linarith
      rcases f1c with e | ⟨e, g⟩
      · rw [e] at hS
        have l1 : f2 < -1 / 2 := by
          by_contra hc
          have := RN_nonneg (x := 1 / 2 + f2) (by linarith)
          linarith
        obtain ⟨m, hm⟩ := f2r.dvd (-54) (by norm_num) (by rw [abs_of_nonpos (by linarith)]; norm_num; linarith)
        have hm' : f2 = m / 2 ^ 53 := by rw [hm]; norm_num; ring
        have m1 : (m : ℚ) < ((-(2 ^ 52) : ℤ) : ℚ) := by
          rw [hm', div_lt_iff₀ (by positivity)] at l1
          push_cast; norm_num at l1 ⊢; exact l1
        have m1' : m < -(2 ^ 52) := by exact_mod_cast m1
        have m2 : (m : ℚ) + 1 ≤ -(2 ^ 52) := by
          have : m + 1 ≤ -(2 ^ 52) := by omega
          exact_mod_cast this
        have S1 : S ≤ -(1 / 2 ^ 53) := by
          rw [hS]
          refine RN_le_of_le (by have := RepQ.dyadic (-1) 53 (by norm_num) (by norm_num); norm_num at this ⊢; exact this) ?_
          rw [hm', show -(1 / 2 ^ 53 : ℚ) = -1 / 2 / 2 ^ 52 by norm_num]
          norm_num at m2 ⊢
          linarith
        have S2 : -(1 / 2) ≤ S := by
          rw [hS]
          exact le_RN_of_le (by have := ra (-1) (by norm_num); norm_num at this ⊢; exact this) (by linarith)
        have tr : truncQ S = 0 := by
          unfold truncQ
          rw [if_pos S0, neg_eq_zero, Int.floor_eq_zero_iff]
          exact ⟨by linarith, by linarith⟩
        rw [hf0, tr]
        push_cast
        linarith
      · rw [e] at hS
        have S2 : -(3 / 2) ≤ S := by
          rw [hS]
          exact le_RN_of_le (by have := ra (-3) (by norm_num); norm_num at this ⊢; exact this) (by linarith)
        have S3 : S ≤ -(1 / 2) := by
          rw [hS]
          exact RN_le_of_le (by have := ra (-1) (by norm_num); norm_num at this ⊢; exact this) (by linarith)
        rcases lt_or_ge (-1) S with h5 | h5
        · have tr : truncQ S = 0 := by
            unfold truncQ
            rw [if_pos S0, neg_eq_zero, Int.floor_eq_zero_iff]
            exact ⟨by linarith, by linarith⟩
          rw [hf0, tr]
          push_cast
          norm_num
          linarith
        · have Sr : RepQ S := hS ▸ RN_rep _
          obtain ⟨m, hm⟩ := Sr.dvd (-53) (by norm_num) (by rw [abs_of_nonpos (by linarith)]; norm_num; linarith)
          have hm' : S = m / 2 ^ 52 := by rw [hm]; norm_num; ring
          have tr : truncQ S = -1 := by
            unfold truncQ
            rw [if_pos S0]
            congr 1
            rw [Int.floor_eq_iff]
            push_cast
            exact ⟨by linarith, by linarith⟩
          rw [tr] at hf0
          have e5 : f0 = ((m + 2 ^ 52 : ℤ) : ℚ) / 2 ^ 52 := by rw [hf0, hm']; push_cast; norm_num; ring
          rw [e5, div_lt_iff₀ (by positivity), zero_mul] at hneg
          have h6 : m + 2 ^ 52 < 0 := by exact_mod_cast hneg
          have h7 : ((m + 2 ^ 52 : ℤ) : ℚ) ≤ -1 := by exact_mod_cast (by omega : m + 2 ^ 52 ≤ -1)
          rw [e5, div_le_iff₀ (by positivity)]
          norm_num at h7 ⊢
          linarith
    rw [sp.val]
    have m2 := main _ _ rfl rfl
    obtain ⟨c1, -, -⟩ := truncQ_spec (RN (a - truncQ a + f2))
    generalize RN (a - truncQ a + f2) - truncQ (RN (a - truncQ a + f2)) = f0 at *
    split
    · rename_i h5
      have := RN_le_of_le (x := f0 + 1) (b := 1 - 1 / 2 ^ 53) (by
        have := RepQ.dyadic (2 ^ 53 - 1) 53 (by norm_num) (by norm_num); norm_num at this ⊢; exact this) (by linarith [m2 h5])
      norm_num at this
      intro hc
      rw [hc] at this
      norm_num at this
    · rw [abs_lt] at c1
      exact c1.2.ne
  have hab : |a + b| ≤ 2 ^ 40 := by
    rw [abs_le] at hcl ⊢
    norm_num at hcl ⊢
    constructor <;> linarith [hcl.1, hcl.2]
  unfold GregorianDate.order
  rw [hy.le hx]
  by_cases hba : b ≤ a
  · simp only [hba, decide_true, if_true]
    exact key x y a b hx hy hba (by rw [← hn, max_eq_left hba]) hab
  · simp only [hba, decide_false, Bool.false_eq_true, if_false]
    exact key y x b a hy hx (not_le.mp hba).le (by rw [← hn, max_eq_right (not_le.mp hba).le]) (by rwa [add_comm])

/-- The Modified Julian Date of the witness of `C07_fraction_below_one_false`, in the usual pair. -/
example : max (2400000.5 : ℚ) 51544.99 = ((2400000 : ℤ) : ℚ) + 1 / 2 ∧ Is (lit 2400000.5 : F64) 2400000.5 := by
  refine ⟨by rw [max_eq_left (by norm_num)]; norm_num, ?_⟩
  have := dy_lit 4800001 1 (by norm_num) (by norm_num)
  norm_num at this ⊢
  exact this

end Verif
