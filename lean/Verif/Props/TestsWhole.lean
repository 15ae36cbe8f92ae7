import Verif.Model.TestsWhole
import Verif.Lemmas.TestData
import Verif.Lemmas.Epv
import Verif.Props.Tests
import Verif.Props.TestEllipsoid

/-!
# C94: what the tests of tests.rs accept
-/

namespace Verif
open Spec F64 Arith

/-! ### The comparisons -/

theorem nan_add (x : F64) : nan +. x = nan := rfl
theorem add_nan (x : F64) : x +. nan = nan := by cases x <;> rfl
theorem nan_sub (x : F64) : nan -. x = nan := rfl
theorem sub_nan (x : F64) : x -. nan = nan := by cases x <;> rfl
theorem nan_mul (x : F64) : nan *. x = nan := rfl
theorem mul_nan (x : F64) : x *. nan = nan := by cases x <;> rfl
theorem nan_div (x : F64) : nan /. x = nan := rfl
theorem lt_nan (t : F64) : (t <. nan) = false := by cases t <;> rfl

/-- The difference of two finite numbers overflows if its rounded value is out of range. -/
theorem sub_over {x y : F64} (hx : isFin x = true) (hy : isFin y = true) (h : OVQ ≤ |RN (v x - v y)|) : ∃ s, x -. y = inf s := by
  have key : ∀ y : F64, isFin y = true → OVQ ≤ |RN (v x + v y)| → ∃ s, F64.add x y = inf s := by
    intro y hy h
    match x, y, hx, hy with
    | fin s m hm, fin t k hk, _, _ =>
      have hU := U_pos
      have e : v (fin s m hm) + v (fin t k hk) = ((sval s m + sval t k : ℤ) : ℚ) / U := by
        simp only [v]; push_cast; ring
      rw [e] at h
      simp only [F64.add]
      generalize sval s m + sval t k = z at *
      have z0 : z ≠ 0 := by
        rintro rfl
        have hO : 0 < OVQ := HUGE_pos.trans HUGE_lt_OVQ
        simp [RN_zero] at h
        linarith
      rw [if_neg z0]
      refine ⟨decide (z < 0), ?_⟩
      unfold ofQuot mkFin
      rw [dif_neg]
      intro hlt
      have r := RN_quot z.natAbs 1 one_pos
      have e2 : ((z.natAbs : ℕ) : ℚ) / (1 : ℕ) / U = |(z : ℚ) / U| := by
        rw [Nat.cast_natAbs, abs_div, abs_of_pos hU]; simp
      rw [e2, RN_abs] at r
      rw [r] at h
      unfold OVQ at h
      have := (div_le_div_iff_of_pos_right hU).mp h
      have : OVN ≤ rndMag z.natAbs 1 := by exact_mod_cast this
      omega
  exact key (F64.neg y) (by rw [isFin_neg]; exact hy) (by rw [v_neg, ← sub_eq_add_neg]; exact h)

/-- **C94**, what `compare_numbers` accepts, for a finite tolerance: a NaN on either side, two infinities of the same sign, or two finite
numbers whose rounded difference is within the tolerance. -/
theorem C94_compare_numbers (a b tol : F64) (τ : ℚ) (ht : Is tol τ) :
    Tests.compareNumbers a b tol = .ok () ↔
      a = nan ∨ b = nan ∨ (∃ s, a = inf s ∧ b = inf s) ∨ (isFin a = true ∧ isFin b = true ∧ |RN (v a - v b)| ≤ τ) := by
  have ok : Tests.compareNumbers a b tol = .ok () ↔ (tol <. Arith.abs (a -. b)) = false := by
    unfold Tests.compareNumbers
    cases tol <. Arith.abs (a -. b) <;> simp
  rw [ok]
  have hinf : (tol <. (inf false : F64)) = true := by
    obtain ⟨h, -⟩ := ht
    cases tol <;> first | rfl | simp [isFin] at h
  have hnan := lt_nan tol
  by_cases ha : isFin a = true
  · by_cases hb : isFin b = true
    · have h0 : a ≠ nan := by rintro rfl; simp [isFin] at ha
      have h1 : b ≠ nan := by rintro rfl; simp [isFin] at hb
      have h2 : ¬ ∃ s, a = inf s ∧ b = inf s := by rintro ⟨s, rfl, -⟩; simp [isFin] at ha
      simp only [h0, h1, h2, ha, hb, false_or, true_and]
      by_cases h : |RN (v a - v b)| < OVQ
      · rw [ht.lt ((Is.self ha).sub' (Is.self hb) h).abs]
        simp
      · obtain ⟨s, e⟩ := sub_over ha hb (not_lt.mp h)
        rw [e, show Arith.abs (inf s : F64) = inf false from rfl, hinf]
        have := (le_abs_self _).trans_lt ht.lt_OVQ
        simp only [Bool.true_eq_false, false_iff, not_le]
        exact this.trans_le (not_lt.mp h)
    · cases b with
      | nan => rw [sub_nan, show Arith.abs (nan : F64) = nan from rfl, hnan]; simp
      | inf t =>
        cases a with
        | fin s n h =>
          rw [show Arith.abs ((fin s n h : F64) -. inf t) = inf false from rfl, hinf]
          simp [isFin]
        | _ => simp [isFin] at ha
      | fin _ _ _ => simp [isFin] at hb
  · cases a with
    | nan => rw [nan_sub, show Arith.abs (nan : F64) = nan from rfl, hnan]; simp
    | inf s =>
      cases b with
      | nan => rw [sub_nan, show Arith.abs (nan : F64) = nan from rfl, hnan]; simp
      | inf t =>
        by_cases e : s = t
        · subst e
          have : (inf s : F64) -. inf s = nan := by cases s <;> rfl
          rw [this, show Arith.abs (nan : F64) = nan from rfl, hnan]
          simp
        · have : Arith.abs ((inf s : F64) -. inf t) = inf false := by cases s <;> cases t <;> first | rfl | exact absurd rfl e
          rw [this, hinf]
          simp [isFin, Ne.symm e]
      | fin t n h =>
        rw [show Arith.abs ((inf s : F64) -. fin t n h) = inf false from rfl, hinf]
        simp [isFin]
    | fin _ _ _ => simp [isFin] at ha

/-- **C94**, in exact arithmetic: finite numbers within the tolerance are accepted, and accepted finite numbers differ by less than any binary64
number above the tolerance. -/
theorem C94_compare_finite (a b tol : F64) (ha : isFin a = true) (hb : isFin b = true) (ht : isFin tol = true) :
    (|v a - v b| ≤ v tol → Tests.compareNumbers a b tol = .ok ()) ∧
    (Tests.compareNumbers a b tol = .ok () → ∀ t : F64, isFin t = true → v tol < v t → |v a - v b| < v t) := by
  have h0 : a ≠ nan := by rintro rfl; simp [isFin] at ha
  have h1 : b ≠ nan := by rintro rfl; simp [isFin] at hb
  have h2 : ¬ ∃ s, a = inf s ∧ b = inf s := by rintro ⟨s, rfl, -⟩; simp [isFin] at ha
  have h := C94_compare_numbers a b tol _ (Is.self ht)
  simp only [h0, h1, h2, ha, hb, false_or, true_and] at h
  rw [h, ← RN_abs]
  refine ⟨fun hd => RN_le_of_le (v_rep tol) hd, fun hd t _ hlt => ?_⟩
  by_contra hn
  exact absurd (le_RN_of_le (v_rep t) (not_lt.mp hn)) (not_le.mpr (hd.trans_lt hlt))

/-- **C94**, `compare_matrices` accepts two matrices if `compare_numbers` accepts each pair of entries. -/
theorem C94_compare_matrices (a b : Mat3 F64) (tol : F64) :
    Tests.compareMatrices a b tol = .ok () ↔ ∀ i j : Fin 3, Tests.compareNumbers (a.get i j) (b.get i j) tol = .ok () := by
  have ok : ∀ x y : F64, Tests.compareNumbers x y tol = .ok () ↔ (tol <. Arith.abs (x -. y)) = false := by
    intro x y
    unfold Tests.compareNumbers
    cases tol <. Arith.abs (x -. y) <;> simp
  simp only [ok]
  unfold Tests.compareMatrices
  constructor
  · intro h i j
    split at h
    · simp at h
    · rename_i hn
      simp only [List.any_eq_true, not_exists, not_and, List.mem_finRange, forall_true_left, Bool.not_eq_true] at hn
      exact hn i j
  · intro h
    rw [if_neg]
    simp only [List.any_eq_true, not_exists, not_and, List.mem_finRange, forall_true_left, Bool.not_eq_true]
    exact h

/-! ### The loops -/

theorem forM_ok {ι : Type} (L : List ι) (f : ι → Rust Unit) : L.forM f = .ok () ↔ ∀ x ∈ L, f x = .ok () := by
  induction L with
  | nil => simp; rfl
  | cons x L ih =>
    show (f x >>= fun _ => L.forM f) = _ ↔ _
    rw [List.forall_mem_cons, ← ih]
    cases h : f x with
    | error e => exact ⟨fun c => (by cases c), fun c => (by cases c.1)⟩
    | ok u => exact ⟨fun c => ⟨rfl, c⟩, fun c => c.2⟩

theorem seq_ok (a b : Rust Unit) : (a >>= fun _ => b) = .ok () ↔ a = .ok () ∧ b = .ok () := by
  cases a with
  | error e => exact ⟨fun c => (by cases c), fun c => (by cases c.1)⟩
  | ok u => exact ⟨fun c => ⟨rfl, c⟩, fun c => c.2⟩

open Tests

/-- **C94**, each of the eleven tests against a table passes exactly if the entries of the table, one by one, are within the tolerance of what the
function under test gives. -/
theorem C94_data_tests [Libm F64] :
    (∀ data, testPolarMotionMatrix data = .ok () ↔
      ∀ d ∈ data, compareMatrices d.2.2.2 (polarMotionMatrix d.1 d.2.1 d.2.2.1) EPSILON = .ok ()) ∧
    (∀ data, testNutationMatrix data = .ok () ↔
      ∀ d ∈ data, compareMatrices d.2.2.2 (nutationMatrix d.1 d.2.1 d.2.2.1) EPSILON = .ok ()) ∧
    (∀ data, testNutation data = .ok () ↔ ∀ d ∈ data,
      compareNumbers d.2.2.1 (nutation (d.1, d.2.1)).1 EPSILON = .ok () ∧
      compareNumbers d.2.2.2 (nutation (d.1, d.2.1)).2 EPSILON = .ok ()) ∧
    (∀ data, testBiasAndPrecession data = .ok () ↔ ∀ d ∈ data,
      compareMatrices d.2.2.1 (biasAndPrecession (d.1, d.2.1)).1 EPSILON = .ok () ∧
      compareMatrices d.2.2.2.1 (biasAndPrecession (d.1, d.2.1)).2.1 EPSILON = .ok () ∧
      compareMatrices d.2.2.2.2 (biasAndPrecession (d.1, d.2.1)).2.2 EPSILON = .ok ()) ∧
    (∀ data, testRotationAngle data = .ok () ↔
      ∀ d ∈ data, compareNumbers d.2.2 (rotationAngle (d.1, d.2.1)) EPSILON = .ok ()) ∧
    (∀ data, testPrecessionRate data = .ok () ↔ ∀ d ∈ data,
      compareNumbers d.2.2.1 (precessionRate (d.1, d.2.1)).1 EPSILON = .ok () ∧
      compareNumbers d.2.2.2 (precessionRate (d.1, d.2.1)).2 EPSILON = .ok ()) ∧
    (∀ data, testPrecessionNutation data = .ok () ↔
      ∀ d ∈ data, compareMatrices d.2.2 (precessionNutation (d.1, d.2.1)) (lit 2 *. EPSILON) = .ok ()) ∧
    (∀ data, testCelestialToIntermediate data = .ok () ↔
      ∀ d ∈ data, compareMatrices d.2.2 (celestialToIntermediate (d.1, d.2.1)) EPSILON = .ok ()) ∧
    (∀ data, testLocator data = .ok () ↔
      ∀ d ∈ data, compareNumbers d.2.2.2.2 (cio (d.1, d.2.1) d.2.2.1 d.2.2.2.1) EPSILON = .ok ()) ∧
    (∀ data, testC2tFromCio data = .ok () ↔
      ∀ d ∈ data, compareMatrices d.2.2.2 (celestialToTerrestrialFromCio d.1 d.2.1 d.2.2.1) EPSILON = .ok ()) ∧
    (∀ data, testCelestialToTerrestrial data = .ok () ↔ ∀ d ∈ data,
      timesIter d.1 d.2.1 d.2.2.1 d.2.2.2.1 d.2.2.2.2.1 d.2.2.2.2.2.1 d.2.2.2.2.2.2.1 d.2.2.2.2.2.2.2.1 = .ok () ∧
      compareMatrices d.2.2.2.2.2.2.2.2
        (celestialToTerrestrial (d.1, d.2.1) (UT1.fromTT (d.1, d.2.1) d.2.2.2.2.2.1) (lit 0) (lit 0)) EPSILON = .ok ()) := by
  refine ⟨fun data => forM_ok _ _, fun data => forM_ok _ _, fun data => ?_, fun data => ?_, fun data => forM_ok _ _, fun data => ?_,
    fun data => forM_ok _ _, fun data => forM_ok _ _, fun data => forM_ok _ _, fun data => forM_ok _ _, fun data => ?_⟩
  · refine (forM_ok _ _).trans (forall₂_congr fun d _ => seq_ok _ _)
  · refine (forM_ok _ _).trans (forall₂_congr fun d _ => (seq_ok _ _).trans (and_congr_right fun _ => seq_ok _ _))
  · refine (forM_ok _ _).trans (forall₂_congr fun d _ => seq_ok _ _)
  · refine (forM_ok _ _).trans (forall₂_congr fun d _ => seq_ok _ _)

/-! ### The tests that need no math library -/

/-- **C94**, `test_rotation_angle` passes: on all the entries of `ERA00_DATA`, the rotation angle in binary64 is within the tolerance of the
reference. -/
theorem C94_test_rotation_angle :
    testRotationAngle (TestData.ERA00_DATA.map fun d => (num d.1, num d.2.1, num d.2.2)) = .ok () := by
  refine (forM_ok _ _).mpr fun x hx => ?_
  obtain ⟨d, hd, rfl⟩ := List.mem_map.mp hx
  exact cmp_ok (eval_fast (P := fun A => eraEntry A d = true) (era_all d hd))

/-- **C94**, `test_precession_rate` passes. -/
theorem C94_test_precession_rate :
    testPrecessionRate (TestData.PR00_DATA.map fun d => (num d.1, num d.2.1, num d.2.2.1, num d.2.2.2)) = .ok () := by
  refine (forM_ok _ _).mpr fun x hx => ?_
  obtain ⟨d, hd, rfl⟩ := List.mem_map.mp hx
  have h := eval_fast (P := fun A => prEntry A d = true) (pr_all d hd)
  unfold prEntry at h
  rw [Bool.and_eq_true] at h
  exact (seq_ok _ _).mpr ⟨cmp_ok h.1, cmp_ok h.2⟩

/-- **C94**, the comparisons of the time scales in `test_celestial_to_terrestrial` pass. -/
theorem C94_test_time_scales : ∀ d ∈ TestData.C2T00B_DATA,
    timesIter (num d.1) (num d.2.1) (num d.2.2.1) (num d.2.2.2.1) (num d.2.2.2.2.1) (num d.2.2.2.2.2.1) (num d.2.2.2.2.2.2.1)
      (num d.2.2.2.2.2.2.2) = .ok () := by
  intro d hd
  have h := eval_fast (P := fun A => c2tEntry A d = true) (c2t_all d hd)
  unfold c2tEntry at h
  rw [Bool.and_eq_true, Bool.and_eq_true, Bool.and_eq_true] at h
  exact (seq_ok _ _).mpr ⟨cmp_ok h.1.1.1, (seq_ok _ _).mpr ⟨cmp_ok h.1.1.2, (seq_ok _ _).mpr ⟨cmp_ok h.1.2, cmp_ok h.2⟩⟩⟩

/-- **C94**, the offsets `dtr` and `dt` are zero in every entry of the table. -/
theorem C94_zero_offsets : ∀ d ∈ TestData.C2T00B_DATA, d.2.2.1.q = 0 ∧ d.2.2.2.2.2.1.q = 0 := by
  have h : TestData.C2T00B_DATA.all (fun d => decide (d.2.2.1.m = 0 ∧ d.2.2.2.2.2.1.m = 0)) = true := by decide +kernel
  intro d hd
  have := of_decide_eq_true (List.all_eq_true.mp h d hd)
  unfold Epv.Dec.q
  rw [this.1, this.2]
  simp

example : TestData.ERA00_DATA.length = 1000 ∧ TestData.PR00_DATA.length = 1000 ∧ TestData.C2T00B_DATA.length = 1000 := by decide +kernel

/-! ### The other tests -/

/-- **C94**, `test_geodetic_display` passes, in either build profile. -/
theorem C94_test_geodetic_display (p : Profile) : testGeodeticDisplay p = .ok () := by
  cases p <;> decide +kernel

/-- **C94**, `test_delta_at` passes, in either build profile. -/
theorem C94_test_delta_at (p : Profile) : testDeltaAt p = .ok () := by
  cases p <;> decide +kernel

/-- The draws of `fastrand::f64()`. -/
def Draw (x : F64) : Prop := isFin x = true ∧ 0 ≤ v x ∧ v x < 1

theorem known1_ok (p : Profile) : calendarKnown1 p (lit 2436116.31) 1957 10 4 (lit 0.81) = .ok () := by cases p <;> decide +kernel
theorem known2_ok (p : Profile) : calendarKnown2 p (lit 2460623.50) 2024 11 9 0 0 (lit 0) = .ok () := by cases p <;> decide +kernel
theorem known3_ok (p : Profile) : calendarKnown2 p (lit 2433282.623611111) 1950 1 1 2 58 (lit 0) = .ok () := by
  cases p <;> decide +kernel

theorem calendar_loop (p : Profile) (u : ℕ → F64 × F64) (hu : ∀ n, Draw (u n).1 ∧ Draw (u n).2) (L : List ℕ) :
    (L.forM fun n => calendarIter p (u n).1 (u n).2) = .ok () := by
  refine (forM_ok _ _).mpr fun n _ => ?_
  obtain ⟨⟨a1, a2⟩, ⟨b1, b2⟩⟩ := hu n
  exact C82_test_calendar p _ _ a1 b1 a2 b2

/-- **C94**, `test_calendar` passes, in either build profile, whatever the draws. -/
theorem C94_test_calendar (p : Profile) (u : ℕ → F64 × F64) (hu : ∀ n, Draw (u n).1 ∧ Draw (u n).2) :
    testCalendar p u = .ok () := by
  unfold testCalendar
  rw [seq_ok, seq_ok, seq_ok]
  exact ⟨known1_ok p, known2_ok p, known3_ok p, calendar_loop p u hu _⟩

/-- **C94**, `test_hms` passes whatever the draws. -/
theorem C94_test_hms (u : ℕ → F64) (hu : ∀ n, Draw (u n)) : testHms u = .ok () :=
  (forM_ok _ _).mpr fun n _ => C82_test_hms _ (hu n).1 (hu n).2.1 (hu n).2.2

/-- **C94**, `test_rotation` passes whatever the draws. -/
theorem C94_test_rotation [Libm F64] (hL : LibmAcc) (u : ℕ → F64 × F64 × F64)
    (hu : ∀ n, Draw (u n).1 ∧ Draw (u n).2.1 ∧ Draw (u n).2.2) : Tests.testRotation u = .ok () :=
  (forM_ok _ _).mpr fun n _ =>
    C82_test_rotation hL _ _ _ (hu n).1.1 (hu n).2.1.1 (hu n).2.2.1 (hu n).1.2 (hu n).2.1.2 (hu n).2.2.2

theorem fromTDB_warning [Libm F64] (d : F64 × F64) : ∃ e : EarthPosVel F64, EarthPosVel.fromTDB d = .ok e ∧
    e.warning = !(Arith.abs (((d.1 -. DJ00) +. d.2) /. DJY) <. lit 100) := by
  unfold EarthPosVel.fromTDB
  simp only [axisPosVel_ok, ok_bind]
  exact ⟨_, rfl, rfl⟩

theorem earth_dates : ∀ h : ℕ, h < 24 →
    (Arith.abs ((((TDB.fromTT ((DJ00 : F64), Arith.ofInt 0 +. Arith.ofInt (h : ℤ) /. lit 24) (lit 0)).1 -. DJ00) +.
      (TDB.fromTT ((DJ00 : F64), Arith.ofInt 0 +. Arith.ofInt (h : ℤ) /. lit 24) (lit 0)).2) /. DJY) <. lit 100) = true := by
  decide +kernel

theorem earthIter_ok [Libm F64] (a b : ℤ) (k :  (Arith.abs ((((TDB.fromTT ((DJ00 : F64), Arith.ofInt a +. Arith.ofInt b /. lit 24) (lit 0)).1 -. DJ00) +.
      (TDB.fromTT ((DJ00 : F64), Arith.ofInt a +. Arith.ofInt b /. lit 24) (lit 0)).2) /. DJY) <. lit 100) = true) : earthIter a b = .ok () := by
  unfold earthIter
  simp only
  obtain ⟨e, he, hw⟩ := fromTDB_warning (TDB.fromTT ((DJ00 : F64), Arith.ofInt a +. Arith.ofInt b /. lit 24) (lit 0))
  rw [k] at hw
  rw [he, ok_bind, hw]
  rfl

/-- **C94**, `test_earth` passes whatever the math library: what it asserts depends on the dates only. -/
theorem C94_test_earth [Libm F64] : testEarth = .ok () := by
  unfold testEarth
  rw [forM_ok]
  exact fun h hh => earthIter_ok 0 h (earth_dates h (List.mem_range.mp hh))

/-! ### A library that returns NaN -/

/-- A math library all of whose functions return NaN. -/
@[reducible] def nanLibm : Libm F64 where
  sin _ := nan
  cos _ := nan
  tan _ := nan
  acos _ := nan
  asin _ := nan
  atan _ := nan
  atan2 _ _ := nan

section
attribute [local instance] nanLibm

/-- All entries are NaN. -/
def nanMat : Mat3 F64 := ⟨⟨nan, nan, nan⟩, ⟨nan, nan, nan⟩, ⟨nan, nan, nan⟩⟩

theorem compare_nan (a tol : F64) : compareNumbers a nan tol = .ok () := by
  unfold compareNumbers
  rw [sub_nan, show Arith.abs (nan : F64) = nan from rfl, lt_nan]
  rfl

theorem compare_nanMat (a : Mat3 F64) (tol : F64) : compareMatrices a nanMat tol = .ok () := by
  rw [C94_compare_matrices]
  intro i j
  have : nanMat.get i j = nan := by fin_cases i <;> fin_cases j <;> rfl
  rw [this]
  exact compare_nan _ _

/-- The rotation about an axis with this library, whatever the angle. -/
def nanRot (axis : Fin 3) : Mat3 F64 := Mat3.rotation axis nan

theorem rotation_nan (axis : Fin 3) (x : F64) : Mat3.rotation axis x = nanRot axis := rfl

theorem compose_nan_right (a b : Mat3 F64) (h : ∀ j, ∃ k, b.get k j = nan) : a.compose b = nanMat := by
  have key : ∀ i j : Fin 3,
      ((lit 0 +. a.get i 0 *. b.get 0 j) +. a.get i 1 *. b.get 1 j) +. a.get i 2 *. b.get 2 j = nan := by
    intro i j
    obtain ⟨k, hk⟩ := h j
    fin_cases k <;> simp only [Fin.zero_eta, Fin.mk_one, Fin.reduceFinMk] at hk <;> rw [hk] <;>
      simp only [mul_nan, add_nan, nan_add]
  unfold Mat3.compose Mat3.ofFn nanMat
  simp only [key]

theorem compose_nan_left (a b : Mat3 F64) (h : ∀ i, ∃ k, a.get i k = nan) : a.compose b = nanMat := by
  have key : ∀ i j : Fin 3,
      ((lit 0 +. a.get i 0 *. b.get 0 j) +. a.get i 1 *. b.get 1 j) +. a.get i 2 *. b.get 2 j = nan := by
    intro i j
    obtain ⟨k, hk⟩ := h i
    fin_cases k <;> simp only [Fin.zero_eta, Fin.mk_one, Fin.reduceFinMk] at hk <;> rw [hk] <;>
      simp only [nan_mul, add_nan, nan_add]
  unfold Mat3.compose Mat3.ofFn nanMat
  simp only [key]

theorem polar_nan (xp yp sp : F64) : polarMotionMatrix xp yp sp = nanMat := by
  unfold polarMotionMatrix
  simp only [rotation_nan]
  decide +kernel

theorem nutationMatrix_nan (a b c : F64) : nutationMatrix a b c = nanMat := by
  unfold nutationMatrix
  simp only [rotation_nan]
  decide +kernel

theorem bias_nan (tt : F64 × F64) : biasAndPrecession tt = (nanMat, nanMat, nanMat) := by
  unfold biasAndPrecession
  simp only [rotation_nan]
  decide +kernel

theorem xys_nan (x y s : F64) : celestialToIntermediateFromXys x y s = nanMat := by
  unfold celestialToIntermediateFromXys
  simp only [rotation_nan]
  decide +kernel

theorem precessionNutation_nan (tt : F64 × F64) : precessionNutation tt = nanMat := by
  unfold precessionNutation PrecessionNutation.fromTT PrecessionNutation.fromTTWithNutation
  simp only [nutationMatrix_nan, bias_nan]
  decide +kernel

theorem c2t_nan (rc2i : Mat3 F64) (era : F64) (rpom : Mat3 F64) : celestialToTerrestrialFromCio rc2i era rpom = nanMat := by
  unfold celestialToTerrestrialFromCio
  apply compose_nan_right
  intro j
  refine ⟨0, ?_⟩
  rw [rotation_nan]
  unfold Mat3.compose
  have e : (nanRot 2).get 0 0 = nan := rfl
  fin_cases j <;> simp only [Mat3.ofFn, Mat3.get] <;> rw [show (nanRot 2).r0.x = nan from rfl] <;>
    simp only [nan_mul, add_nan, nan_add]

theorem sin_nan (x : F64) : Libm.sin x = nan := rfl
theorem cos_nan (x : F64) : Libm.cos x = nan := rfl

theorem foldl_nan {ι : Type} (f : F64 → ι → F64) (hf : ∀ a x, f a x = nan) (L : List ι) (h : L ≠ []) (a : F64) : L.foldl f a = nan := by
  induction L generalizing a with
  | nil => exact absurd rfl h
  | cons x L ih =>
    rw [List.foldl_cons, hf]
    by_cases e : L = []
    · subst e; rfl
    · exact ih e _

theorem sCoef_nan (fa : List F64) (sp : ℤ) (ks : List (List ℤ)) (ss : List (ℤ × ℤ)) (h : (ks.zip ss).reverse ≠ []) :
    sCoef fa sp ks ss = nan := by
  unfold sCoef
  refine foldl_nan _ (fun a x => ?_) _ h _
  show a +. (_ *. nan +. _ *. nan) = nan
  rw [mul_nan, nan_add, add_nan]

theorem cio_nan (tt : F64 × F64) (x y : F64) : cio tt x y = nan := by
  unfold cio
  simp only [sCoef_nan _ 9400 KS0 SS0 (by decide)]
  rfl

theorem nutation_nan (tt : F64 × F64) : nutation tt = (nan, nan) := by
  have key : ∀ (g : F64 × F64 → Nal × Cls → F64 × F64) (_ : ∀ a x, g a x = (nan, nan)) (L : List (Nal × Cls)) (_ : L ≠ []) (a : F64 × F64),
      L.foldl g a = (nan, nan) := by
    intro g hg L h
    induction L with
    | nil => exact absurd rfl h
    | cons x L ih =>
      intro a
      rw [List.foldl_cons, hg]
      by_cases e : L = []
      · subst e; rfl
      · exact ih e _
  have hn : (NALS.zip CLS).reverse ≠ [] := by decide
  have e : ∀ g, (∀ a x, g a x = (nan, nan)) → (NALS.zip CLS).reverse.foldl g ((lit 0, lit 0) : F64 × F64) = (nan, nan) :=
    fun g hg => key g hg _ hn _
  unfold nutation
  extract_lets t el elp f d om dpde dpsils depsls
  have hd : dpde = (nan, nan) := e _ fun a x => by simp only [sin_nan, cos_nan, mul_nan, add_nan]
  have h1 : dpsils = nan := by
    show dpde.1 *. U2R = nan
    rw [hd]; rfl
  have h2 : depsls = nan := by
    show dpde.2 *. U2R = nan
    rw [hd]; rfl
  rw [h1, h2]
  rfl

/-- **C94**, with a math library that always returns NaN, the nine tests against a table that use the library pass **whatever the table** (the test of
the whole transformation, if its time scales agree), and so does `test_rotation`, whatever the draws.  The comparisons are
written `if e > tol { panic!() }`, which a NaN does not trigger.  Of the tests that use the library and check a result, only `test_ellipsoid`
fails: the conversion reports bad coordinates, and the `unwrap` panics. -/
theorem C94_nan_library :
    (∀ data, testPolarMotionMatrix data = .ok ()) ∧ (∀ data, testNutationMatrix data = .ok ()) ∧
    (∀ data, testNutation data = .ok ()) ∧ (∀ data, testBiasAndPrecession data = .ok ()) ∧
    (∀ data, testPrecessionNutation data = .ok ()) ∧ (∀ data, testCelestialToIntermediate data = .ok ()) ∧
    (∀ data, testLocator data = .ok ()) ∧ (∀ data, testC2tFromCio data = .ok ()) ∧
    (∀ data : List _, (∀ d ∈ data, timesIter d.1 d.2.1 d.2.2.1 d.2.2.2.1 d.2.2.2.2.1 d.2.2.2.2.2.1 d.2.2.2.2.2.2.1 d.2.2.2.2.2.2.2.1 = .ok ()) →
      testCelestialToTerrestrial data = .ok ()) ∧
    (∀ u, Tests.testRotation u = .ok ()) ∧ (∀ u : ℕ → F64 × F64 × F64, Tests.testEllipsoid u = .error .unwrap) := by
  obtain ⟨d1, d2, d3, d4, -, -, d7, d8, d9, d10, d11⟩ := @C94_data_tests nanLibm
  refine ⟨fun data => (d1 data).mpr fun d _ => ?_, fun data => (d2 data).mpr fun d _ => ?_, fun data => (d3 data).mpr fun d _ => ?_,
    fun data => (d4 data).mpr fun d _ => ?_, fun data => (d7 data).mpr fun d _ => ?_, fun data => (d8 data).mpr fun d _ => ?_,
    fun data => (d9 data).mpr fun d _ => ?_, fun data => (d10 data).mpr fun d _ => ?_, fun data h => (d11 data).mpr fun d hd => ⟨h d hd, ?_⟩,
    fun u => (forM_ok _ _).mpr fun n _ => ?_, fun u => ?_⟩
  · rw [polar_nan]; exact compare_nanMat _ _
  · rw [nutationMatrix_nan]; exact compare_nanMat _ _
  · rw [nutation_nan]; exact ⟨compare_nan _ _, compare_nan _ _⟩
  · rw [bias_nan]; exact ⟨compare_nanMat _ _, compare_nanMat _ _, compare_nanMat _ _⟩
  · rw [precessionNutation_nan]; exact compare_nanMat _ _
  · have : celestialToIntermediate (d.1, d.2.1) = nanMat := xys_nan _ _ _
    rw [this]; exact compare_nanMat _ _
  · rw [cio_nan]; exact compare_nan _ _
  · rw [c2t_nan]; exact compare_nanMat _ _
  · have : celestialToTerrestrial (d.1, d.2.1) (UT1.fromTT (d.1, d.2.1) d.2.2.2.2.2.1) (lit 0) (lit 0) = nanMat := c2t_nan _ _ _
    rw [this]; exact compare_nanMat _ _
  · have : rotationIter (u n).1 (u n).2.1 (u n).2.2 = rotationIter nan nan nan := rfl
    rw [this]
    decide +kernel
  · obtain ⟨w, hw⟩ := wgs84_f64
    unfold Tests.testEllipsoid
    rw [hw, List.range_succ_eq_map]
    show (ellipsoidIter w (u 0).1 (u 0).2.1 (u 0).2.2 >>= fun _ => _) = _
    have : ∀ g, w.geodeticToGeocentric g = .error .badCoordinates := fun g => by
      unfold EllipsoidConverter.geodeticToGeocentric
      simp only [sin_nan, cos_nan, nan_mul, nan_add, lt_nan]
      rfl
    unfold ellipsoidIter
    simp only [this]
    rfl
end

/-- The hypothesis on the time scales is met by an entry of the table of the source. -/
example (m : Mat3 F64) : @testCelestialToTerrestrial nanLibm ((TestData.C2T00B_DATA.take 1).map fun d =>
    (num d.1, num d.2.1, num d.2.2.1, num d.2.2.2.1, num d.2.2.2.2.1, num d.2.2.2.2.2.1, num d.2.2.2.2.2.2.1, num d.2.2.2.2.2.2.2, m)) = .ok () := by
  refine C94_nan_library.2.2.2.2.2.2.2.2.1 _ fun d hd => ?_
  obtain ⟨x, hx, rfl⟩ := List.mem_map.mp hd
  exact C94_test_time_scales x (List.mem_of_mem_take hx)

/-- A comparison that fails: 33 is not 34. -/
example : compareNumbers (lit 33 : F64) (lit 34) EPSILON = .error .assert := by decide +kernel

/-- Draws exist. -/
example : Draw (lit 0.25) := by
  refine ⟨by decide +kernel, ?_, ?_⟩ <;> decide +kernel

end Verif
