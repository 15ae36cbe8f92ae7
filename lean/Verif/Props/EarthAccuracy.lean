import Verif.Lemmas.EpvFrom
import Verif.Props.EarthAngle

/-!
# Accuracy of the binary64 Earth ephemeris
-/

namespace Verif
open Arith F64

/-- Every component of the float vector is finite and within `e` of the same component of the real vector. -/
def VecNear (v : Vec3 F64) (w : Vec3 ℝ) (e : ℝ) : Prop := Near v.x w.x e ∧ Near v.y w.y e ∧ Near v.z w.z e

/-- **C68.** For every date within a century of J2000.0, held in two `f64` parts of which the first is at most four
million days, and every mathematical library accurate to `2^-50`, no panic occurs and every component of the `f64`
heliocentric position is within `3e-11` au (4.5 m), of the barycentric position within `3.2e-11` au, and of both
velocities within `6e-13` au per day of the value in exact arithmetic. -/
theorem C68_ephemeris_f64 [Libm F64] (hL : LibmAcc) (x y : F64) (a b : ℚ) (hx : Is x a) (hy : Is y b)
    (ha : |a| ≤ 4000000) (h : |a + b - 2451545| ≤ 36525) :
    ∃ (e : EarthPosVel F64) (r : EarthPosVel ℝ), EarthPosVel.fromTDB (x, y) = .ok e ∧
      EarthPosVel.fromTDB ((a : ℝ), (b : ℝ)) = .ok r ∧
      VecNear e.heliocentric.p r.heliocentric.p (3 / 10 ^ 11) ∧ VecNear e.heliocentric.v r.heliocentric.v (6 / 10 ^ 13) ∧
      VecNear e.barycentric.p r.barycentric.p (3.2 / 10 ^ 11) ∧ VecNear e.barycentric.v r.barycentric.v (6 / 10 ^ 13) := by
  have hD := days_near hx hy (by exact_mod_cast ha) (by exact_mod_cast h)
  obtain ⟨e, r, h1, h2, h3, h4, h5, h6⟩ := epv_acc hL (hD.mono (by norm_num))
  exact ⟨e, r, h1, h2, ⟨h3.1.near, h3.2.1.near, h3.2.2.near⟩, ⟨h4.1.near, h4.2.1.near, h4.2.2.near⟩,
    ⟨h5.1.near, h5.2.1.near, h5.2.2.near⟩, ⟨h6.1.near, h6.2.1.near, h6.2.2.near⟩⟩

/-- **C68.** The `f64` date warning is absent for every date more than `2e-9` days inside the century around J2000.0
and present for every date more than `2e-9` days outside it (up to a thousand years). -/
theorem C68_warning_f64 [Libm F64] (x y : F64) (a b : ℚ) (hx : Is x a) (hy : Is y b)
    (ha : |a| ≤ 4000000) (h : |a + b - 2451545| ≤ 365250) (e : EarthPosVel F64)
    (he : EarthPosVel.fromTDB (x, y) = .ok e) :
    (|a + b - 2451545| ≤ 36525 - 2 / 10 ^ 9 → e.warning = false) ∧
    (36525 + 2 / 10 ^ 9 ≤ |a + b - 2451545| → e.warning = true) := by
  rw [fromTDB_fold] at he
  obtain rfl := Except.ok.inj he
  have h0 : Is (DJ00 : F64) 2451545 := dj00_is
  have hj : Is (DJY : F64) 365.25 := by
    unfold DJY
    refine Is.lit_exact _ ?_ (small_le_HUGE (by norm_num))
    have := RepQ.dyadic 1461 2 (by norm_num) (by norm_num)
    norm_num at this ⊢; exact this
  have hH : Is (lit 100 : F64) 100 := by have := Is.lit_int 100 (by norm_num); norm_num at this; exact this
  have ha' : |(a : ℝ)| ≤ 4000000 := by exact_mod_cast ha
  have h' : |(a : ℝ) - 2451545 + b| ≤ 365250 := by
    rw [show (a : ℝ) - 2451545 + b = a + b - 2451545 by ring]; exact_mod_cast h
  have n1 := (NB.of_is hx ha').sub (NB.of_is' (a := 2451545) (M := 2451545) h0 (by norm_num) (by norm_num))
    (E := 73 / 10 ^ 11) (M := 6451545) (by norm_num)
  have hb' : |(b : ℝ)| ≤ 7 * 10 ^ 6 := by
    have e : (b : ℝ) = (a - 2451545 + b) - (a - 2451545) := by ring
    rw [e]
    refine (abs_sub _ _).trans ?_
    have := n1.mag
    norm_num at this ⊢
    linarith
  have n2 : Near ((x -. DJ00) +. y) ((a : ℝ) - 2451545 + b) (8 / 10 ^ 10) := by
    refine (n1.near.add (Near.of_is hy) (M := 365251) ?_ (by norm_num)).mono (by norm_num)
    norm_num; linarith
  have n3 : NB (((x -. DJ00) +. y) /. DJY) (((a : ℝ) - 2451545 + b) / 365.25) (3 / 10 ^ 12) 1001 :=
    (NB.mk n2 h').div (NB.of_is' (a := 365.25) (M := 366) hj (by norm_num) (by norm_num)) (β := 365.25) (by norm_num)
      (by norm_num) (by norm_num)
  obtain ⟨t, it, et, -⟩ := n3.exists_is
  have key : (epvFold (x, y)).warning = !decide (|t| < 100) := by
    unfold epvFold
    simp only
    rw [it.abs.lt hH]
  rw [key]
  have et' := abs_abs_sub_abs_le_abs_sub (t : ℝ) (((a : ℝ) - 2451545 + b) / 365.25)
  have ed : |((a : ℝ) - 2451545 + b) / 365.25| = |(a : ℝ) + b - 2451545| / 365.25 := by
    rw [abs_div, abs_of_pos (show (0 : ℝ) < 365.25 by norm_num)]; congr 2; ring
  rw [ed] at et'
  have e3 := abs_le.mp (et'.trans et)
  constructor
  · intro hi
    have hi' : |(a : ℝ) + b - 2451545| ≤ 36525 - 2 / 10 ^ 9 := by
      have := (Rat.cast_le (K := ℝ)).mpr hi; push_cast at this; exact this
    have : |(t : ℝ)| < 100 := by
      have := e3.2
      norm_num at this hi'
      linarith
    have h2 : |t| < 100 := by exact_mod_cast this
    simp [h2]
  · intro hi
    have hi' : 36525 + 2 / 10 ^ 9 ≤ |(a : ℝ) + b - 2451545| := by
      have := (Rat.cast_le (K := ℝ)).mpr hi; push_cast at this; exact this
    have : 100 ≤ |(t : ℝ)| := by
      have := e3.1
      norm_num at this hi'
      linarith
    have h2 : ¬ |t| < 100 := by rw [not_lt]; exact_mod_cast this
    simp [h2]

/-- The hypotheses hold for a library that exists and for 2007-04-05 12:00 in the modified Julian split. -/
example : ∃ L : Libm F64, @LibmAcc L ∧ ∃ x y : F64, Is x 2400000.5 ∧ Is y 54195.5 ∧
    |(2400000.5 : ℚ)| ≤ 4000000 ∧ |(2400000.5 + 54195.5 - 2451545 : ℚ)| ≤ 36525 - 2 / 10 ^ 9 := by
  refine ⟨goodLibm, exists_libmAcc, lit 2400000.5, lit 54195.5, Is.lit_exact _ ?_ (small_le_HUGE (by norm_num)),
    Is.lit_exact _ ?_ (small_le_HUGE (by norm_num)), by norm_num [abs_le], by norm_num [abs_le]⟩
  · have := RepQ.dyadic 4800001 1 (by norm_num) (by norm_num)
    norm_num at this ⊢
    exact this
  · have := RepQ.dyadic 108391 1 (by norm_num) (by norm_num)
    norm_num at this ⊢
    exact this

end Verif
