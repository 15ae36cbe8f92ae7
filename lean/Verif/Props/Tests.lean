import Verif.Model.Tests
import Verif.Float.Floor
import Verif.Float.Sqrt
import Verif.Lemmas.MatAcc
import Verif.Props.Common
import Verif.Props.HMS

/-!
# C82: the randomised tests of tests.rs pass whatever the random numbers
-/

namespace Verif
open Spec F64

theorem eps_is : Is (Tests.EPSILON : F64) (1 / 2 ^ 52) := by
  unfold Tests.EPSILON
  refine Is.lit_exact _ ?_ (small_le_HUGE (by norm_num [abs_of_pos]))
  have := RepQ.dyadic 1 52 (by norm_num) (by norm_num)
  push_cast at this
  exact this

theorem sqrt_eps_is : Is (Arith.sqrt (Tests.EPSILON : F64)) (1 / 2 ^ 26) := by
  have e : Arith.sqrt (Tests.EPSILON : F64) = Arith.lit (1 / 2 ^ 26) := by decide +kernel
  rw [e]
  refine Is.lit_exact _ ?_ (small_le_HUGE (by norm_num [abs_of_pos]))
  have := RepQ.dyadic 1 26 (by norm_num) (by norm_num)
  push_cast at this
  exact this

/-- **C82**, `test_hms`: whatever the draw, the body of the loop does not panic. -/
theorem C82_test_hms (f : F64) (hf : isFin f = true) (h0 : 0 ≤ v f) (h1 : v f < 1) :
    Tests.hmsIter f = .ok () := by
  obtain ⟨h, m, s, e, a0, a1, b0, b1, hs, s0, s1, -, hh⟩ := C13_fields_in_range f hf h0 h1.le
  obtain ⟨hms, e', ht, hd⟩ := C14_fraction_round_trip_f64 f hf h0 h1.le
  rw [e] at e'
  injection e' with e'
  subst e'
  have h24 : h ≠ 24 := fun c => h1.ne (hh.mp c)
  have i0 : Is (Arith.lit 0 : F64) 0 := by
    have := Is.lit_int 0 (by norm_num)
    norm_num at this
    exact this
  unfold Tests.hmsIter
  rw [e]
  simp only
  rw [if_pos ⟨by omega, by omega, by rw [i0.le (Is.self hs)]; simpa using s0,
    by rw [(Is.self hs).lt lit60_is]; simpa using s1⟩]
  unfold Tests.compareNumbers
  have hd' : |v f - v (HMS.toFractionOfDay ⟨h, m, s⟩)| ≤ 1 / 2 ^ 52 := by rw [abs_sub_comm]; exact hd
  have i := ((Is.self hf).sub (Is.self ht) (small_le_HUGE (hd'.trans (by norm_num)))).abs
  rw [eps_is.lt i, if_neg]
  rw [decide_eq_true_eq, not_lt, ← RN_abs]
  exact RN_le_of_le eps_is.rep hd'


theorem compareMatrices_ok {m n : Mat3 F64} {R : Mat3 ℝ} {e : ℝ} (hm : MN m R e) (hn : MN n R 0) (he : e ≤ 1 / 2 ^ 27) :
    Tests.compareMatrices m n (Arith.sqrt Tests.EPSILON) = .ok () := by
  unfold Tests.compareMatrices
  rw [if_neg]
  simp only [List.any_eq_true, not_exists, not_and, List.mem_finRange, forall_true_left]
  intro i j
  obtain ⟨q, hq, hq'⟩ := hm.entry i j
  obtain ⟨r, hr, hr'⟩ := hn.entry i j
  have hd : |q - r| ≤ 1 / 2 ^ 26 := by
    have h1 := abs_le.mp hq'
    have h2 := abs_le.mp hr'
    have : |(q : ℝ) - r| ≤ 1 / 2 ^ 26 := by
      rw [abs_le]
      norm_num at he ⊢
      constructor <;> linarith [h1.1, h1.2, h2.1, h2.2]
    have h3 : ((|q - r| : ℚ) : ℝ) ≤ ((1 / 2 ^ 26 : ℚ) : ℝ) := by push_cast; exact this
    exact_mod_cast h3
  have i1 := (hq.sub hr (small_le_HUGE (hd.trans (by norm_num)))).abs
  rw [sqrt_eps_is.lt i1, decide_eq_true_eq, not_lt, ← RN_abs]
  exact RN_le_of_le sqrt_eps_is.rep hd

theorem rotation_zero' (axis : Fin 3) : Mat3.rotation axis (0 : ℝ) = Mat3.identity := by
  apply Mat3.toMatrix_injective
  rw [Mat3.toMatrix_rotation, Mat3.toMatrix_identity]
  ext i j
  fin_cases axis <;> fin_cases i <;> fin_cases j <;> simp

/-- **C82**, `test_rotation`: whatever the draws, the body of the loop does not panic. -/
theorem C82_test_rotation [Libm F64] (hL : LibmAcc) (u0 u1 u2 : F64) (h0 : isFin u0 = true) (h1 : isFin u1 = true)
    (h2 : isFin u2 = true) (b0 : 0 ≤ v u0 ∧ v u0 < 1) (b1 : 0 ≤ v u1 ∧ v u1 < 1) (b2 : 0 ≤ v u2 ∧ v u2 < 1) :
    Tests.rotationIter u0 u1 u2 = .ok () := by
  have key : ∀ u : F64, isFin u = true → 0 ≤ v u ∧ v u < 1 → ∃ q : ℚ, Is (u *. TWO_PI) q ∧ |(q : ℝ)| ≤ 8 := by
    intro u hu hb
    obtain ⟨t, ht, t1, t2⟩ := two_pi_is
    have hm : |v u * t| ≤ 2 ^ 3 := by
      rw [abs_of_nonneg (mul_nonneg hb.1 (by linarith))]
      nlinarith [hb.1, hb.2]
    refine ⟨_, (Is.self hu).mul ht (small_le_HUGE (hm.trans (by norm_num))), ?_⟩
    have := RN_abs_le_pow hm
    have h3 : ((|RN (v u * t)| : ℚ) : ℝ) ≤ ((2 ^ 3 : ℚ) : ℝ) := by exact_mod_cast this
    push_cast at h3
    norm_num at h3 ⊢
    exact h3
  obtain ⟨q0, i0, m0⟩ := key u0 h0 b0
  obtain ⟨q1, i1, m1⟩ := key u1 h1 b1
  obtain ⟨q2, i2, m2⟩ := key u2 h2 b2
  have R : ∀ {x : F64} {q : ℚ}, Is x q → |(q : ℝ)| ≤ 8 →
      MN (Mat3.rotation 0 x) (Mat3.rotation 0 (q : ℝ)) (3 / 2 ^ 50) ∧
      MN (Mat3.rotation 0 (Arith.neg x)) (Mat3.rotation 0 (-(q : ℝ))) (3 / 2 ^ 50) := by
    intro x q hx hq
    have hn := hx.neg
    have e : ((-q : ℚ) : ℝ) = -(q : ℝ) := by push_cast; rfl
    refine ⟨MN.rot hL (NB.of_is hx hq) 0 (by norm_num), ?_⟩
    have := NB.of_is hn (M := 8) (by rw [e, abs_neg]; exact hq)
    rw [e] at this
    exact MN.rot hL this 0 (by norm_num)
  have rt := fun t : ℝ => IsRotation.rotation 0 t
  obtain ⟨p0, n0⟩ := R i0 m0
  obtain ⟨p1, n1⟩ := R i1 m1
  obtain ⟨p2, n2⟩ := R i2 m2
  have a1 := p1.compose p2 (rt _) (rt _) (E := 1 / 10 ^ 14) (by norm_num) (by norm_num) (by norm_num)
  rw [C29_rotation_add] at a1
  have a2 := p0.compose a1 (rt _) (rt _) (E := 2 / 10 ^ 14) (by norm_num) (by norm_num) (by norm_num)
  rw [C29_rotation_add] at a2
  have c1 := n1.compose n0 (rt _) (rt _) (E := 1 / 10 ^ 14) (by norm_num) (by norm_num) (by norm_num)
  rw [C29_rotation_add] at c1
  have c2 := n2.compose c1 (rt _) (rt _) (E := 2 / 10 ^ 14) (by norm_num) (by norm_num) (by norm_num)
  rw [C29_rotation_add] at c2
  have d := a2.compose c2 (rt _) (rt _) (E := 5 / 10 ^ 14) (by norm_num) (by norm_num) (by norm_num)
  rw [C29_rotation_add] at d
  have z : (q0 : ℝ) + (q1 + q2) + (-q2 + (-q1 + -q0)) = 0 := by ring
  rw [z, rotation_zero'] at d
  exact compareMatrices_ok d MN.identity (by norm_num)

/-- **C82**, `test_calendar`: whatever the draws, the body of the random loop does not panic, in either build
profile. -/
theorem C82_test_calendar (p : Profile) (u f : F64) (hu : isFin u = true) (hf : isFin f = true)
    (bu : 0 ≤ v u ∧ v u < 1) (bf : 0 ≤ v f ∧ v f < 1) : Tests.calendarIter p u f = .ok () := by
  have i365 : Is (Arith.lit 36500.0 : F64) 36500 := by
    have := Is.lit_int 36500 (by norm_num)
    exact (by norm_num : ((36500 : ℤ) : ℚ) = 36500.0) ▸ this.congr (by norm_num)
  have ihalf : Is (Arith.lit 0.5 : F64) (1 / 2) := by
    have := Is.lit_exact (0.5 : ℚ) (by
      rw [show (0.5 : ℚ) = ((1 : ℤ) : ℚ) / 2 ^ 1 by norm_num]
      exact RepQ.dyadic 1 1 (by norm_num) (by norm_num)) (small_le_HUGE (by norm_num [abs_of_pos]))
    exact this.congr (by norm_num)
  have dy : ∀ n : ℤ, |n| ≤ 2 ^ 53 → RepQ ((n : ℚ) / 2) := fun n hn => by
    have := RepQ.dyadic n 1 hn (by norm_num)
    rwa [pow_one] at this
  -- the day number
  have r1 : RepQ (4800001 / 2 + 36500 : ℚ) := by
    have := dy 4873001 (by norm_num)
    norm_num at this ⊢
    exact this
  have is1 := mjd_zero_is.add_exact i365 r1 (small_lt_OVQ (by norm_num [abs_of_pos]))
  have m0 : 0 ≤ (4800001 / 2 + 36500) * v u := mul_nonneg (by norm_num) bu.1
  have m1 : (4800001 / 2 + 36500) * v u ≤ 4800001 / 2 + 36500 := by nlinarith [bu.1, bu.2]
  have is2 := is1.mul (Is.self hu) (small_le_HUGE (by rw [abs_of_nonneg m0]; norm_num at m1 ⊢; linarith))
  have n0 := RN_nonneg m0
  have n1 := RN_le_of_le r1 m1
  generalize RN ((4800001 / 2 + 36500) * v u) = w at *
  have imin : Is (GregorianDate.DJ_MIN : F64) (-32000) := lit_neg32000_is
  have hsum : |-32000 + w| ≤ 2 ^ 200 := by rw [abs_le]; norm_num at n1 ⊢; constructor <;> linarith
  have is3 := (imin.add is2 (small_le_HUGE hsum)).floor
  have k0 : -32000 ≤ RN (-32000 + w) := le_RN_of_le imin.rep (by linarith)
  have rmax : RepQ (2404500.5 : ℚ) := by
    have := dy 4809001 (by norm_num)
    norm_num at this ⊢
    exact this
  have k1 : RN (-32000 + w) ≤ 2404500.5 := RN_le_of_le rmax (by norm_num at n1 ⊢; linarith)
  have k0' : -32000 ≤ ⌊RN (-32000 + w)⌋ := by
    rw [Int.le_floor]; push_cast; exact k0
  have k1' : ⌊RN (-32000 + w)⌋ ≤ 2404500 := by
    have := Int.floor_le (RN (-32000 + w))
    have h : (⌊RN (-32000 + w)⌋ : ℚ) < 2404501 := by norm_num at k1; linarith
    have : ⌊RN (-32000 + w)⌋ < 2404501 := by exact_mod_cast h
    omega
  generalize ⌊RN (-32000 + w)⌋ = k at *
  have kq0 : (-32000 : ℚ) ≤ k := by exact_mod_cast k0'
  have kq1 : (k : ℚ) ≤ 2404500 := by exact_mod_cast k1'
  have is4 := is3.add_exact ihalf (by
      have := dy (2 * k + 1) (by rw [abs_le]; constructor <;> omega)
      rw [show (k : ℚ) + 1 / 2 = ((2 * k + 1 : ℤ) : ℚ) / 2 by push_cast; ring]; exact this)
    (small_lt_OVQ (by rw [abs_le]; norm_num; constructor <;> linarith))
  set xa := Arith.floor ((GregorianDate.DJ_MIN : F64) +. (GregorianDate.MJD_ZERO +. Arith.lit 36500.0) *. u) +.
    Arith.lit 0.5 with hxa
  have a1 : |(k : ℚ) + 1 / 2 + v f| ≤ 2404502 := by rw [abs_le]; constructor <;> linarith [bf.1, bf.2]
  have is5 := is4.add (Is.self hf) (small_le_HUGE (a1.trans (by norm_num)))
  have er1 := RN_err_le a1
  have l1 : -32000 ≤ RN ((k : ℚ) + 1 / 2 + v f) := le_RN_of_le imin.rep (by linarith [bf.1])
  have l2 : RN ((k : ℚ) + 1 / 2 + v f) ≤ 536802340 := by
    have := abs_le.mp er1
    have := abs_le.mp a1
    norm_num at *
    linarith
  obtain ⟨d, f2, N, e, hdate, hy, hN, hf2, q0, q1, hb, -⟩ := C05_from_julian_instant p xa f is4.fin hf
    ((lit_neg32000_is.le is5).trans (by simpa using l1)) ((is5.le safe_max_is).trans (by simpa using l2))
  rw [is4.val] at hb
  have hmin : |min ((k : ℚ) + 1 / 2) (v f)| ≤ 32000 := by
    rw [abs_le]
    constructor
    · exact le_min (by linarith) (by linarith [bf.1])
    · exact (min_le_right _ _).trans (by linarith [bf.2])
  have hb' : |(2400000.5 + N + v f2) - ((k : ℚ) + 1 / 2 + v f)| ≤ 32003 / 2 ^ 53 :=
    hb.trans (by apply div_le_div_of_nonneg_right _ (by norm_num); linarith)
  have hb1 := abs_le.mp hb'
  have u1 := daysFrom_unique _ _ mjdEpoch_isDate hdate N hN
  rw [mjdN_epoch, sub_zero] at u1
  have N0 : -2432001 ≤ N := by
    have : (-2432002 : ℚ) < N := by norm_num at hb1; linarith [hb1.1, bf.1]
    have : (-2432002 : ℤ) < N := by exact_mod_cast this
    omega
  have N1 : N ≤ 4502 := by
    have : (N : ℚ) < 4503 := by norm_num at hb1; linarith [hb1.2, bf.2]
    have : (N : ℤ) < 4503 := by exact_mod_cast this
    omega
  have hyr : d.year < 1900 := by
    apply year_lt_of_mjdN hdate
    rw [← u1]
    have : mjdN 1900 1 1 = 15020 := by decide
    omega
  have hm := marchYear_le d
  have g1 : -4800 ≤ marchYear d := marchYear_ge hdate (by simp only [GregorianDate.civil] at u1; omega) hy
  have ej : GregorianDate.toJulian p d = .ok ((GregorianDate.MJD_ZERO : F64), Arith.ofInt N) := by
    unfold GregorianDate.toJulian
    rw [toJulianDay_ok' p d hdate g1 (by omega), u1]
    rfl
  have iN : Is (Arith.ofInt N : F64) N := Is.ofInt N (by rw [abs_le]; constructor <;> omega)
  have Nq0 : (-2432001 : ℚ) ≤ N := by exact_mod_cast N0
  have Nq1 : (N : ℚ) ≤ 4502 := by exact_mod_cast N1
  have is6 := mjd_zero_is.add_exact iN (by
      have := dy (4800001 + 2 * N) (by rw [abs_le]; constructor <;> omega)
      rw [show (4800001 / 2 : ℚ) + N = ((4800001 + 2 * N : ℤ) : ℚ) / 2 by push_cast; ring]; exact this)
    (small_lt_OVQ (by rw [abs_le]; norm_num; constructor <;> linarith))
  have a2 : |(4800001 / 2 : ℚ) + N + v f2| ≤ 2404504 := by rw [abs_le]; norm_num; constructor <;> linarith
  have is7 := is6.add (Is.self hf2) (small_le_HUGE (a2.trans (by norm_num)))
  have er2 := RN_err_le a2
  have hd : |RN ((k : ℚ) + 1 / 2 + v f) - RN ((4800001 / 2 : ℚ) + N + v f2)| ≤ 1 / 2 ^ 27 := by
    have e1 := abs_le.mp er1
    have e2 := abs_le.mp er2
    rw [abs_le]
    norm_num at e1 e2 hb1 ⊢
    constructor <;> linarith [e1.1, e1.2, e2.1, e2.2, hb1.1, hb1.2]
  have is8 := (is5.sub is7 (small_le_HUGE (hd.trans (by norm_num)))).abs
  have r27 : RepQ (1 / 2 ^ 27 : ℚ) := by
    have := RepQ.dyadic 1 27 (by norm_num) (by norm_num)
    push_cast at this
    exact this
  have fin : |RN (RN ((k : ℚ) + 1 / 2 + v f) - RN ((4800001 / 2 : ℚ) + N + v f2))| ≤ 1 / 2 ^ 27 := by
    rw [← RN_abs]; exact RN_le_of_le r27 hd
  unfold Tests.calendarIter
  simp only
  rw [← hxa, e, ok_bind]
  simp only
  rw [ej, ok_bind]
  simp only
  rw [sqrt_eps_is.le is8, if_neg]
  rw [decide_eq_true_eq, not_le]
  exact fin.trans_lt (by norm_num)

-- the draws 0, 0.5 and 1-2^-53 meet the hypotheses
example : isFin (Arith.lit 0.5 : F64) = true ∧ Tests.calendarIter .checked (Arith.lit 0 : F64) (Arith.lit 0.5) = .ok () ∧
    Tests.calendarIter .checked (Arith.lit (1 - 1 / 2 ^ 53) : F64) (Arith.lit (1 - 1 / 2 ^ 53)) = .ok () ∧
    Tests.hmsIter (Arith.lit (1 - 1 / 2 ^ 53) : F64) = .ok () := by decide +kernel

-- a library within the bounds exists
example : ∃ L : Libm F64, @Tests.rotationIter F64 _ L (Arith.lit 0) (Arith.lit 0.25) (Arith.lit 0.75) = .ok () :=
  ⟨goodLibm, @C82_test_rotation goodLibm exists_libmAcc _ _ _ (by decide +kernel) (by decide +kernel) (by decide +kernel)
    (by decide +kernel) (by decide +kernel) (by decide +kernel)⟩

-- a draw of 1 would make `test_hms` fail: the bound on the draw matters
example : Tests.hmsIter (Arith.lit 1 : F64) = .error .assert := by decide +kernel

end Verif
