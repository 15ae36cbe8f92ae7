import Verif.Lemmas.EpvReal
import Verif.Lemmas.Mat3
import Verif.Props.Common
import Mathlib.Analysis.Real.Pi.Bounds

/-!
# C34-C37: Earth position and velocity
-/

namespace Verif
open Arith Epv

/-! ## C37 -/

/-- **C37.** The conversion never indexes outside a table: it succeeds for every input, for any arithmetic
(exact or `f64`) and any implementation of the libm functions. -/
theorem C37_no_panic {α : Type} [Arith α] [Libm α] (d : α × α) : ∃ e, EarthPosVel.fromTDB d = .ok e := by
  unfold EarthPosVel.fromTDB
  simp only [axisPosVel_ok, ok_bind]
  exact ⟨_, rfl⟩

/-- The `j`-th term of column `k` of a table of the program has the value of the `j`-th reference triple. -/
def TermEq (T : Table) (k : Fin 3) (j : ℕ) (r : Dec × Dec × Dec) : Prop :=
  ∃ a b c : Dec, entry? T k j = some (a, b, c) ∧ a.q = r.1.q ∧ b.q = r.2.1.q ∧ c.q = r.2.2.q

theorem termEq_of (A B C : List Row) (k : Fin 3) (n : ℕ) (R : List (Dec × Dec × Dec))
    (h : n ≤ (column A B C k).length ∧ sameTerms ((column A B C k).take n) R = true) :
    R.length = n ∧ ∀ j (hj : j < R.length), TermEq [A, B, C] k j R[j] := by
  obtain ⟨hn, hR⟩ := h
  have hq := sameTerms_q3 hR
  have hl : R.length = n := by
    have := congrArg List.length hq
    simp at this
    omega
  refine ⟨hl, fun j hj => ?_⟩
  have hj' : j < (column A B C k).length := by omega
  have e1 : (((column A B C k).take n).map q3)[j]? = some (q3 (column A B C k)[j]) := by
    rw [List.getElem?_map, List.getElem?_take_of_lt (by omega), List.getElem?_eq_getElem hj']; rfl
  have e2 : (R.map q3)[j]? = some (q3 R[j]) := by
    rw [List.getElem?_map, List.getElem?_eq_getElem hj]; rfl
  rw [hq, e2] at e1
  have e3 : q3 R[j] = q3 (column A B C k)[j] := by simpa using e1
  refine ⟨(column A B C k)[j].1, (column A B C k)[j].2.1, (column A B C k)[j].2.2, ?_, ?_⟩
  · rw [entry_column, List.getElem?_eq_getElem hj']
  · unfold q3 at e3
    simp only [Prod.mk.injEq] at e3
    exact ⟨e3.1.symm, e3.2.1.symm, e3.2.2.symm⟩

/-- **C37.** The numbers of terms summed are those of the Fortran routine and every entry used equals the
corresponding entry of its `DATA` statements. -/
theorem C37_tables_match_fortran (k : Fin 3) :
    ((EpvRef.E0 k).length = NE0 k ∧ ∀ j (hj : j < (EpvRef.E0 k).length), TermEq Epv.E0 k j (EpvRef.E0 k)[j]) ∧
    ((EpvRef.E1 k).length = NE1 k ∧ ∀ j (hj : j < (EpvRef.E1 k).length), TermEq Epv.E1 k j (EpvRef.E1 k)[j]) ∧
    ((EpvRef.E2 k).length = NE2 k ∧ ∀ j (hj : j < (EpvRef.E2 k).length), TermEq Epv.E2 k j (EpvRef.E2 k)[j]) ∧
    ((EpvRef.S0 k).length = NS0 k ∧ ∀ j (hj : j < (EpvRef.S0 k).length), TermEq Epv.S0 k j (EpvRef.S0 k)[j]) ∧
    ((EpvRef.S1 k).length = NS1 k ∧ ∀ j (hj : j < (EpvRef.S1 k).length), TermEq Epv.S1 k j (EpvRef.S1 k)[j]) ∧
    ((EpvRef.S2 k).length = NS2 k ∧ ∀ j (hj : j < (EpvRef.S2 k).length), TermEq Epv.S2 k j (EpvRef.S2 k)[j]) :=
  ⟨termEq_of _ _ _ k _ _ (E0_check k), termEq_of _ _ _ k _ _ (E1_check k),
   termEq_of _ _ _ k _ _ (E2_check k), termEq_of _ _ _ k _ _ (S0_check k),
   termEq_of _ _ _ k _ _ (S1_check k), termEq_of _ _ _ k _ _ (S2_check k)⟩

-- the last term of the longest series
example : TermEq Epv.E0 1 500 ((EpvRef.E0 1)[500]'(by decide +kernel)) :=
  ((C37_tables_match_fortran 1).1).2 500 (by decide +kernel)
-- the tables are padded, so an index past the count would not be noticed by a bounds check alone
example : (EpvRef.E0 2).length = 137 ∧ (entry? Epv.E0 2 137).isSome := by decide +kernel

/-! ## C34, C35 -/

theorem toICRF_real (v : Vec3 ℝ) : toICRF v =
    ⟨v.x + 0.000000211284 * v.y - 0.000000091603 * v.z,
     -0.000000230286 * v.x + 0.917482137087 * v.y - 0.397776982902 * v.z,
     0.397776982902 * v.y + 0.917482137087 * v.z⟩ := by
  unfold toICRF
  simp only [lit_real, add_real, mul_real]
  push_cast
  ext <;> ring

/-- Julian years since J2000.0. -/
noncomputable def years (s : ℝ) : ℝ := (s - 2451545) / 365.25

/-- The exact result as a function of the total Julian date. -/
noncomputable def earthAt (s : ℝ) : EarthPosVel ℝ :=
  let t := years s
  { heliocentric := ⟨toICRF ⟨helioEcl 0 t, helioEcl 1 t, helioEcl 2 t⟩,
      toICRF ⟨helioEcl' 0 t / 365.25, helioEcl' 1 t / 365.25, helioEcl' 2 t / 365.25⟩⟩
    barycentric := ⟨toICRF ⟨helioEcl 0 t + sunEcl 0 t, helioEcl 1 t + sunEcl 1 t, helioEcl 2 t + sunEcl 2 t⟩,
      toICRF ⟨(helioEcl' 0 t + sunEcl' 0 t) / 365.25, (helioEcl' 1 t + sunEcl' 1 t) / 365.25,
        (helioEcl' 2 t + sunEcl' 2 t) / 365.25⟩⟩
    warning := !decide (|t| < 100) }

theorem fromTDB_real (d : ℝ × ℝ) : EarthPosVel.fromTDB d = .ok (earthAt (d.1 + d.2)) := by
  unfold EarthPosVel.fromTDB earthAt
  have e : ((d.1 -. DJ00) +. d.2) /. DJY = years (d.1 + d.2) := by
    unfold years
    simp only [DJ00, DJY, sub_real, add_real, div_real, lit_real]
    push_cast
    ring
  simp only [e, mul_real, axisPosVel_real, ok_bind]
  have w : (Arith.abs (years (d.1 + d.2)) <. lit 100) = decide (|years (d.1 + d.2)| < 100) := by
    rw [Bool.eq_iff_iff, lt_real, decide_eq_true_iff, abs_real, lit_real]
    norm_num
  rw [w]
  rfl

/-- Equality of the position-velocity outputs and the warning flag. -/
theorem earthAt_zero_part (a b : ℝ) : EarthPosVel.fromTDB (a, b) = EarthPosVel.fromTDB (a + b, 0) := by
  rw [fromTDB_real, fromTDB_real]
  simp

/-- **C35.** Positions, velocities and the warning depend only on the date, not on its split. -/
theorem C35_split_independent (a b a' b' : ℝ) (h : a + b = a' + b') :
    EarthPosVel.fromTDB (a, b) = EarthPosVel.fromTDB (a', b') := by
  rw [fromTDB_real, fromTDB_real, h]

/-- **C35.** The warning is issued exactly when the date is 36525 days or more from J2000.0. -/
theorem C35_warning_iff (a b : ℝ) (e : EarthPosVel ℝ) (h : EarthPosVel.fromTDB (a, b) = .ok e) :
    e.warning = true ↔ 36525 ≤ |a + b - 2451545| := by
  rw [fromTDB_real] at h
  obtain rfl := Except.ok.inj h
  show (!decide (|years (a + b)| < 100)) = true ↔ _
  rw [Bool.not_eq_true', decide_eq_false_iff_not, not_lt]
  unfold years
  rw [abs_div, abs_of_pos (show (0 : ℝ) < 365.25 by norm_num), le_div_iff₀ (by norm_num)]
  norm_num

-- 2100-01-01 12:00 is the first instant after J2000.0 with a warning
example : ∃ e, EarthPosVel.fromTDB ((2451545 : ℝ), 36525) = .ok e ∧ e.warning = true := by
  obtain ⟨e, he⟩ := C37_no_panic ((2451545 : ℝ), (36525 : ℝ))
  exact ⟨e, he, (C35_warning_iff _ _ e he).mpr (by norm_num)⟩

theorem hasDerivAt_years (s : ℝ) : HasDerivAt years (1 / 365.25) s := by
  unfold years
  exact ((hasDerivAt_id s).sub_const _).div_const _

theorem deriv_comp {f : ℝ → ℝ} {f' : ℝ} {s : ℝ} (h : HasDerivAt f f' (years s)) :
    HasDerivAt (fun s => f (years s)) (f' / 365.25) s := by
  have := h.comp s (hasDerivAt_years s)
  rwa [mul_one_div] at this

/-- A vector-valued function of time and its derivative, componentwise. -/
def VecDeriv (p : ℝ → Vec3 ℝ) (v : Vec3 ℝ) (s : ℝ) : Prop :=
  HasDerivAt (fun u => (p u).x) v.x s ∧ HasDerivAt (fun u => (p u).y) v.y s ∧
    HasDerivAt (fun u => (p u).z) v.z s

theorem VecDeriv.toICRF {p : ℝ → Vec3 ℝ} {v : Vec3 ℝ} {s : ℝ} (h : VecDeriv p v s) :
    VecDeriv (fun u => Verif.toICRF (p u)) (Verif.toICRF v) s := by
  obtain ⟨hx, hy, hz⟩ := h
  unfold VecDeriv
  simp only [toICRF_real]
  exact ⟨(hx.add (hy.const_mul _)).sub (hz.const_mul _),
    ((hx.const_mul _).add (hy.const_mul _)).sub (hz.const_mul _),
    (hy.const_mul _).add (hz.const_mul _)⟩

/-- **C34.** There is a function `F` of the total Julian date giving the result for every split, and at every
date the velocities it reports are the derivatives (per day) of the positions it reports. -/
theorem C34_velocity_is_derivative :
    ∃ F : ℝ → EarthPosVel ℝ, (∀ a b, EarthPosVel.fromTDB (a, b) = .ok (F (a + b))) ∧
      ∀ s, VecDeriv (fun u => (F u).heliocentric.p) (F s).heliocentric.v s ∧
        VecDeriv (fun u => (F u).barycentric.p) (F s).barycentric.v s := by
  refine ⟨earthAt, fun a b => fromTDB_real (a, b), fun s => ⟨?_, ?_⟩⟩
  · exact VecDeriv.toICRF ⟨deriv_comp (hasDerivAt_helioEcl _ 0), deriv_comp (hasDerivAt_helioEcl _ 1),
      deriv_comp (hasDerivAt_helioEcl _ 2)⟩
  · exact VecDeriv.toICRF
      ⟨deriv_comp ((hasDerivAt_helioEcl _ 0).add (hasDerivAt_sunEcl _ 0)),
       deriv_comp ((hasDerivAt_helioEcl _ 1).add (hasDerivAt_sunEcl _ 1)),
       deriv_comp ((hasDerivAt_helioEcl _ 2).add (hasDerivAt_sunEcl _ 2))⟩

/-! ## C36 -/

theorem ser0_cons (d : Dec × Dec × Dec) (L : List (Dec × Dec × Dec)) (t : ℝ) :
    ser0 (d :: L) t = (d.1.q : ℝ) * Real.cos (d.2.1.q + d.2.2.q * t) + ser0 L t := by
  simp [ser0]

theorem E0X_split : EpvRef.E0X = EpvRef.r 9998292878132 13 1753485171504 12 6283075850446 12 ::
    EpvRef.r 8352579567414 15 1710344404582 12 1256615170089 11 ::
    EpvRef.r 5611445335148 15 0 13 0 13 :: EpvRef.E0X.drop 3 := by decide +kernel

theorem E0Y_split : EpvRef.E0Y = EpvRef.r 9998921098898 13 1826583913846 13 6283075850446 12 ::
    EpvRef.r (-2442700893735) 14 0 13 0 13 ::
    EpvRef.r 8352929742915 15 1395277998680 13 1256615170089 11 :: EpvRef.E0Y.drop 3 := by decide +kernel

theorem poly_le {A B C a b c : ℝ} {t : ℝ} (ht : |t| ≤ 100) (hA : |A| ≤ a) (hB : |B| ≤ b) (hC : |C| ≤ c) :
    |A + t * B + t ^ 2 * C| ≤ a + 100 * b + 10000 * c := by
  refine (abs_add_le _ _).trans (add_le_add ((abs_add_le _ _).trans (add_le_add hA ?_)) ?_)
  · rw [abs_mul]; exact mul_le_mul ht hB (abs_nonneg _) (by norm_num)
  · rw [abs_mul, abs_pow]
    refine mul_le_mul ?_ hC (abs_nonneg _) (by norm_num)
    nlinarith [abs_nonneg t]

theorem helioX (t : ℝ) (ht : |t| ≤ 100) : ∃ e : ℝ, |e| ≤ 0.00058 ∧
    helioEcl 0 t = 0.9998292878132 * Real.cos (1.753485171504 + 6.283075850446 * t)
      + 0.008352579567414 * Real.cos (1.710344404582 + 12.56615170089 * t) + 0.005611445335148 + e := by
  have h0 := sumAbs_le (EpvRef.E0X.drop 3) 390000000000000000000000000 (by decide +kernel) t
  have h1 := sumAbs_le EpvRef.E1X 1800000000000000000000000 (by decide +kernel) t
  have h2 := sumAbs_le EpvRef.E2X 80000000000000000000 (by decide +kernel) t
  refine ⟨_, (poly_le ht h0 h1 h2).trans (by norm_num), ?_⟩
  show ser0 EpvRef.E0X t + t * ser0 EpvRef.E1X t + t ^ 2 * ser0 EpvRef.E2X t = _
  rw [E0X_split, ser0_cons, ser0_cons, ser0_cons, ← E0X_split]
  simp only [Dec.q]
  norm_num
  ring

theorem helioY (t : ℝ) (ht : |t| ≤ 100) : ∃ e : ℝ, |e| ≤ 0.00055 ∧
    helioEcl 1 t = 0.9998921098898 * Real.cos (0.1826583913846 + 6.283075850446 * t)
      + 0.008352929742915 * Real.cos (0.139527799868 + 12.56615170089 * t) - 0.02442700893735 + e := by
  have h0 := sumAbs_le (EpvRef.E0Y.drop 3) 395000000000000000000000000 (by decide +kernel) t
  have h1 := sumAbs_le EpvRef.E1Y 1500000000000000000000000 (by decide +kernel) t
  have h2 := sumAbs_le EpvRef.E2Y 90000000000000000000 (by decide +kernel) t
  refine ⟨_, (poly_le ht h0 h1 h2).trans (by norm_num), ?_⟩
  show ser0 EpvRef.E0Y t + t * ser0 EpvRef.E1Y t + t ^ 2 * ser0 EpvRef.E2Y t = _
  rw [E0Y_split, ser0_cons, ser0_cons, ser0_cons, ← E0Y_split]
  simp only [Dec.q]
  norm_num
  ring

theorem helioZ (t : ℝ) (ht : |t| ≤ 100) : |helioEcl 2 t| ≤ 0.00025 := by
  have h0 := sumAbs_le EpvRef.E0Z 8400000000000000000000000 (by decide +kernel) t
  have h1 := sumAbs_le EpvRef.E1Z 2400000000000000000000000 (by decide +kernel) t
  have h2 := sumAbs_le EpvRef.E2Z 110000000000000000000 (by decide +kernel) t
  exact (poly_le ht h0 h1 h2).trans (by norm_num)

theorem sun_le (t : ℝ) (ht : |t| ≤ 100) :
    |sunEcl 0 t| ≤ 0.01072 ∧ |sunEcl 1 t| ≤ 0.01077 ∧ |sunEcl 2 t| ≤ 0.00032 := by
  refine ⟨?_, ?_, ?_⟩
  · have h0 := sumAbs_le EpvRef.S0X 10712000000000000000000000000 (by decide +kernel) t
    have h1 := sumAbs_le EpvRef.S1X 63000000000000000000000 (by decide +kernel) t
    have h2 := sumAbs_le EpvRef.S2X 9000000000000000000 (by decide +kernel) t
    exact (poly_le ht h0 h1 h2).trans (by norm_num)
  · have h0 := sumAbs_le EpvRef.S0Y 10760000000000000000000000000 (by decide +kernel) t
    have h1 := sumAbs_le EpvRef.S1Y 50000000000000000000000 (by decide +kernel) t
    have h2 := sumAbs_le EpvRef.S2Y 9000000000000000000 (by decide +kernel) t
    exact (poly_le ht h0 h1 h2).trans (by norm_num)
  · have h0 := sumAbs_le EpvRef.S0Z 313000000000000000000000000 (by decide +kernel) t
    have h1 := sumAbs_le EpvRef.S1Z 13000000000000000000000 (by decide +kernel) t
    have h2 := sumAbs_le EpvRef.S2Z 1000000000000000000 (by decide +kernel) t
    exact (poly_le ht h0 h1 h2).trans (by norm_num)

/-- The cosine is 1-Lipschitz. -/
theorem cos_near (a b d : ℝ) (h : |a - b| ≤ d) : |Real.cos a - Real.cos b| ≤ d := by
  refine le_trans ?_ h
  rw [Real.cos_sub_cos, abs_mul, abs_mul, abs_neg, abs_two]
  have h1 := Real.abs_sin_le_one ((a + b) / 2)
  have h2 : |Real.sin ((a - b) / 2)| ≤ |(a - b) / 2| := Real.abs_sin_le_abs
  rw [abs_div, abs_two] at h2
  have := abs_nonneg (Real.sin ((a - b) / 2))
  nlinarith [abs_nonneg (Real.sin ((a + b) / 2))]

/-- Bounds on the direction of perihelion. -/
theorem omega_bounds : -0.23 ≤ Real.cos 1.796625938426 ∧ Real.cos 1.796625938426 ≤ -0.215 ∧
    0.97 ≤ Real.sin 1.796625938426 ∧ Real.sin 1.796625938426 ≤ 0.98 := by
  have p1 := Real.pi_gt_d6
  have p2 := Real.pi_lt_d6
  set z := 1.796625938426 - Real.pi / 2 with hz
  have e : (1.796625938426 : ℝ) = z + Real.pi / 2 := by rw [hz]; ring
  have z0 : 0 < z := by rw [hz]; norm_num at p1 p2 ⊢; linarith
  have z1 : 0.2258 < z := by rw [hz]; norm_num at p1 p2 ⊢; linarith
  have z2 : z < 0.2259 := by rw [hz]; norm_num at p1 p2 ⊢; linarith
  have za : |z| ≤ 1 := by rw [abs_le]; constructor <;> linarith
  rw [e, Real.cos_add_pi_div_two, Real.sin_add_pi_div_two]
  have hs := abs_le.mp (Real.sin_bound za)
  have hc := abs_le.mp (Real.cos_bound za)
  rw [abs_of_pos (by linarith)] at hs hc
  have q1 : z ^ 2 ≤ 0.0511 := by nlinarith
  have q2 : 0.0509 ≤ z ^ 2 := by nlinarith
  have q3 : z ^ 3 ≤ 0.0116 := by nlinarith
  have q4 : 0.0114 ≤ z ^ 3 := by nlinarith
  have q5 : z ^ 4 ≤ 0.00262 := by nlinarith
  have q6 : z ^ 5 ≤ 0.001 := by nlinarith
  have q7 : 0 ≤ z ^ 5 := by positivity
  refine ⟨?_, ?_, ?_, ?_⟩ <;> norm_num at hs hc ⊢ <;> linarith [hs.1, hs.2, hc.1, hc.2]

theorem cauchy2 {A B C S m : ℝ} (hm : 0 ≤ m) (h : C ^ 2 + S ^ 2 = 1) (hAB : A ^ 2 + B ^ 2 ≤ m ^ 2) :
    |C * A + S * B| ≤ m := by
  refine abs_le_of_sq_le_sq ?_ hm
  nlinarith [sq_nonneg (C * B - S * A)]

set_option maxHeartbeats 1000000 in
/-- Distance bounds in the ecliptic frame. -/
theorem helio_dist (t : ℝ) (ht : |t| ≤ 100) :
    0.9822 ^ 2 ≤ helioEcl 0 t ^ 2 + helioEcl 1 t ^ 2 + helioEcl 2 t ^ 2 ∧
    helioEcl 0 t ^ 2 + helioEcl 1 t ^ 2 + helioEcl 2 t ^ 2 ≤ 1.0188 ^ 2 := by
  obtain ⟨ex, hex, hx⟩ := helioX t ht
  obtain ⟨ey, hey, hy⟩ := helioY t ht
  have hz := helioZ t ht
  obtain ⟨o1, o2, o3, o4⟩ := omega_bounds
  have p1 := Real.pi_gt_d6
  have p2 := Real.pi_lt_d6
  have ht' := abs_le.mp ht
  set θ : ℝ := 1.753485171504 + 6.283075850446 * t with hθ
  set ω : ℝ := 1.796625938426 with hω
  -- phases of the four main terms
  have k1 := cos_near (1.710344404582 + 12.56615170089 * t) (2 * θ - ω) 0.000001 (by
    rw [hθ, hω, abs_le]; constructor <;> norm_num <;> linarith)
  have k2 := cos_near (0.1826583913846 + 6.283075850446 * t) (θ - Real.pi / 2) 0.0000320 (by
    rw [hθ, abs_le]; constructor <;> norm_num at p1 p2 ⊢ <;> linarith)
  have k3 := cos_near (0.139527799868 + 12.56615170089 * t) (2 * θ - ω - Real.pi / 2) 0.0000220 (by
    rw [hθ, hω, abs_le]; constructor <;> norm_num at p1 p2 ⊢ <;> linarith)
  rw [Real.cos_sub_pi_div_two] at k2 k3
  generalize Real.cos (1.710344404582 + 12.56615170089 * t) = c1 at *
  generalize Real.cos (0.1826583913846 + 6.283075850446 * t) = c2 at *
  generalize Real.cos (0.139527799868 + 12.56615170089 * t) = c3 at *
  have hC := Real.cos_sq_add_sin_sq θ
  have bC := abs_le.mp (Real.abs_cos_le_one θ)
  have bS := abs_le.mp (Real.abs_sin_le_one θ)
  have bC2 := abs_le.mp (Real.abs_cos_le_one (2 * θ - ω))
  have bS2 := abs_le.mp (Real.abs_sin_le_one (2 * θ - ω))
  have hcomb : Real.cos θ * Real.cos (2 * θ - ω) + Real.sin θ * Real.sin (2 * θ - ω)
      = Real.cos θ * Real.cos ω + Real.sin θ * Real.sin ω := by
    rw [← Real.cos_sub, ← Real.cos_sub, ← Real.cos_neg (θ - ω)]
    congr 1; ring
  generalize Real.cos θ = C at *
  generalize Real.sin θ = S at *
  generalize Real.cos (2 * θ - ω) = C2 at *
  generalize Real.sin (2 * θ - ω) = S2 at *
  generalize Real.cos ω = co at *
  generalize Real.sin ω = so at *
  rw [abs_le] at k1 k2 k3 hex hey
  -- main terms plus small errors
  obtain ⟨ux, hux, hx'⟩ : ∃ ux, |ux| ≤ 0.000752 ∧
      helioEcl 0 t = C + 0.008352579567414 * C2 + 0.005611445335148 + ux := by
    refine ⟨helioEcl 0 t - (C + 0.008352579567414 * C2 + 0.005611445335148), ?_, by ring⟩
    rw [hx, abs_le]
    constructor <;> linarith
  obtain ⟨uy, huy, hy'⟩ : ∃ uy, |uy| ≤ 0.000694 ∧
      helioEcl 1 t = S + 0.008352579567414 * S2 - 0.02442700893735 + uy := by
    refine ⟨helioEcl 1 t - (S + 0.008352579567414 * S2 - 0.02442700893735), ?_, by ring⟩
    rw [hy, abs_le]
    constructor <;> linarith
  rw [abs_le] at hux huy
  generalize helioEcl 0 t = x at *
  generalize helioEcl 1 t = y at *
  generalize helioEcl 2 t = z at *
  -- radial component
  have hR : C * x + S * y = 1 + (C * (0.008352579567414 * co + 0.005611445335148 + ux)
      + S * (0.008352579567414 * so - 0.02442700893735 + uy)) := by
    rw [hx', hy']
    linear_combination hC + 0.008352579567414 * hcomb
  have hRb := cauchy2 (m := 0.01777) (by norm_num) hC
    (A := 0.008352579567414 * co + 0.005611445335148 + ux)
    (B := 0.008352579567414 * so - 0.02442700893735 + uy) (by
      have a1 : |0.008352579567414 * co + 0.005611445335148 + ux| ≤ 0.0046 := by
        rw [abs_le]; constructor <;> linarith
      have a2 : |0.008352579567414 * so - 0.02442700893735 + uy| ≤ 0.01705 := by
        rw [abs_le]; constructor <;> linarith
      have b1 := sq_le_sq' (abs_le.mp a1).1 (abs_le.mp a1).2
      have b2 := sq_le_sq' (abs_le.mp a2).1 (abs_le.mp a2).2
      norm_num at b1 b2 ⊢
      linarith)
  rw [abs_le] at hRb
  have r1 : 0.98223 ≤ C * x + S * y := by rw [hR]; linarith [hRb.1]
  have r2 : C * x + S * y ≤ 1.01777 := by rw [hR]; linarith [hRb.2]
  have hT : x ^ 2 + y ^ 2 = (C * x + S * y) ^ 2 + (C * (y - S) - S * (x - C)) ^ 2 := by
    linear_combination (-(x ^ 2 + y ^ 2)) * hC
  have hTb : |C * (y - S) - S * (x - C)| ≤ 0.0368 := by
    have := cauchy2 (m := 0.0368) (by norm_num) hC (A := y - S) (B := -(x - C)) (by
      have a1 : |y - S| ≤ 0.0336 := by rw [hy', abs_le]; constructor <;> linarith
      have a2 : |x - C| ≤ 0.0148 := by rw [hx', abs_le]; constructor <;> linarith
      have b1 := sq_le_sq' (abs_le.mp a1).1 (abs_le.mp a1).2
      have b2 := sq_le_sq' (abs_le.mp a2).1 (abs_le.mp a2).2
      rw [neg_sq]
      norm_num at b1 b2 ⊢
      linarith)
    rwa [mul_neg, ← sub_eq_add_neg] at this
  have hT2 := sq_le_sq' (abs_le.mp hTb).1 (abs_le.mp hTb).2
  have hz2 := sq_le_sq' (abs_le.mp hz).1 (abs_le.mp hz).2
  rw [hT]
  constructor
  · have h1 : 0.98223 ^ 2 ≤ (C * x + S * y) ^ 2 := pow_le_pow_left₀ (by norm_num) r1 2
    have h2 := sq_nonneg (C * (y - S) - S * (x - C))
    have h3 := sq_nonneg z
    norm_num at h1 ⊢
    linarith
  · have : (C * x + S * y) ^ 2 ≤ 1.01777 ^ 2 := by
      apply pow_le_pow_left₀ (by linarith) r2
    norm_num at this hT2 hz2 ⊢
    linarith

/-- The ecliptic-to-ICRF transformation changes lengths by less than one part in `10^11`. -/
theorem toICRF_norm (v : Vec3 ℝ) :
    |(toICRF v).x ^ 2 + (toICRF v).y ^ 2 + (toICRF v).z ^ 2 - (v.x ^ 2 + v.y ^ 2 + v.z ^ 2)|
      ≤ 1e-11 * (v.x ^ 2 + v.y ^ 2 + v.z ^ 2) := by
  rw [toICRF_real]
  simp only
  generalize v.x = x
  generalize v.y = y
  generalize v.z = z
  rw [abs_le]
  constructor <;>
  nlinarith [sq_nonneg (x - y), sq_nonneg (x + y), sq_nonneg (x - z), sq_nonneg (x + z),
    sq_nonneg (y - z), sq_nonneg (y + z), sq_nonneg x, sq_nonneg y, sq_nonneg z]

/-- **C36.** Within 100 Julian years of J2000.0 the heliocentric distance is between 0.982 and 1.019 au. -/
theorem C36_distance (a b : ℝ) (h : |a + b - 2451545| ≤ 36525) (e : EarthPosVel ℝ)
    (he : EarthPosVel.fromTDB (a, b) = .ok e) :
    0.982 ≤ e.heliocentric.p.norm ∧ e.heliocentric.p.norm ≤ 1.019 := by
  rw [fromTDB_real] at he
  obtain rfl := Except.ok.inj he
  have ht : |years (a + b)| ≤ 100 := by
    unfold years
    rw [abs_div, abs_of_pos (show (0 : ℝ) < 365.25 by norm_num), div_le_iff₀ (by norm_num)]
    norm_num at h ⊢; exact h
  obtain ⟨d1, d2⟩ := helio_dist _ ht
  have hn := toICRF_norm ⟨helioEcl 0 (years (a + b)), helioEcl 1 (years (a + b)), helioEcl 2 (years (a + b))⟩
  show _ ≤ Vec3.norm (toICRF _) ∧ Vec3.norm (toICRF _) ≤ _
  rw [norm_real]
  rw [abs_le] at hn
  simp only at hn
  constructor
  · refine Real.le_sqrt_of_sq_le ?_
    norm_num at hn d1 d2 ⊢
    linarith [hn.1]
  · rw [Real.sqrt_le_left (by norm_num)]
    norm_num at hn d1 d2 ⊢
    linarith [hn.2]

/-- **C36.** The Sun is less than 0.016 au from the barycentre: barycentric minus heliocentric position. -/
theorem C36_sun_offset (a b : ℝ) (h : |a + b - 2451545| ≤ 36525) (e : EarthPosVel ℝ)
    (he : EarthPosVel.fromTDB (a, b) = .ok e) :
    (e.barycentric.p.x - e.heliocentric.p.x) ^ 2 + (e.barycentric.p.y - e.heliocentric.p.y) ^ 2
      + (e.barycentric.p.z - e.heliocentric.p.z) ^ 2 < 0.016 ^ 2 := by
  rw [fromTDB_real] at he
  obtain rfl := Except.ok.inj he
  have ht : |years (a + b)| ≤ 100 := by
    unfold years
    rw [abs_div, abs_of_pos (show (0 : ℝ) < 365.25 by norm_num), div_le_iff₀ (by norm_num)]
    norm_num at h ⊢; exact h
  obtain ⟨s0, s1, s2⟩ := sun_le _ ht
  set t := years (a + b)
  have hn := toICRF_norm ⟨sunEcl 0 t, sunEcl 1 t, sunEcl 2 t⟩
  have e : ∀ u v : Vec3 ℝ, (toICRF ⟨u.x + v.x, u.y + v.y, u.z + v.z⟩).x - (toICRF u).x = (toICRF v).x ∧
      (toICRF ⟨u.x + v.x, u.y + v.y, u.z + v.z⟩).y - (toICRF u).y = (toICRF v).y ∧
      (toICRF ⟨u.x + v.x, u.y + v.y, u.z + v.z⟩).z - (toICRF u).z = (toICRF v).z := by
    intro u v
    simp only [toICRF_real]
    refine ⟨?_, ?_, ?_⟩ <;> ring
  obtain ⟨e1, e2, e3⟩ := e ⟨helioEcl 0 t, helioEcl 1 t, helioEcl 2 t⟩ ⟨sunEcl 0 t, sunEcl 1 t, sunEcl 2 t⟩
  show ((toICRF ⟨helioEcl 0 t + sunEcl 0 t, helioEcl 1 t + sunEcl 1 t, helioEcl 2 t + sunEcl 2 t⟩).x
      - (toICRF ⟨helioEcl 0 t, helioEcl 1 t, helioEcl 2 t⟩).x) ^ 2
    + ((toICRF ⟨helioEcl 0 t + sunEcl 0 t, helioEcl 1 t + sunEcl 1 t, helioEcl 2 t + sunEcl 2 t⟩).y
      - (toICRF ⟨helioEcl 0 t, helioEcl 1 t, helioEcl 2 t⟩).y) ^ 2
    + ((toICRF ⟨helioEcl 0 t + sunEcl 0 t, helioEcl 1 t + sunEcl 1 t, helioEcl 2 t + sunEcl 2 t⟩).z
      - (toICRF ⟨helioEcl 0 t, helioEcl 1 t, helioEcl 2 t⟩).z) ^ 2 < _
  simp only at e1 e2 e3
  rw [e1, e2, e3]
  rw [abs_le] at hn
  simp only at hn
  have b0 := sq_le_sq' (abs_le.mp s0).1 (abs_le.mp s0).2
  have b1 := sq_le_sq' (abs_le.mp s1).1 (abs_le.mp s1).2
  have b2 := sq_le_sq' (abs_le.mp s2).1 (abs_le.mp s2).2
  norm_num at hn b0 b1 b2 ⊢
  linarith [hn.2]

-- the hypotheses hold for 2020-01-01
example : |(2458849.5 : ℝ) + 0.25 - 2451545| ≤ 36525 := by norm_num [abs_le]

end Verif
