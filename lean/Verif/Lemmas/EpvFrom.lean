import Verif.Lemmas.EpvSeries
import Verif.Lemmas.NutAcc

/-!
# The Earth ephemeris in binary64: positions and velocities
-/

namespace Verif
open Arith F64 Epv

/-- Days since J2000.0 of a date given as two floats whose values are `a` and `b`. -/
theorem days_near {x y : F64} {a b : ℚ} (hx : Is x a) (hy : Is y b) (ha : |(a : ℝ)| ≤ 4000000)
    (hd : |(a : ℝ) + b - 2451545| ≤ 36525) :
    NB ((x -. DJ00) +. y) ((a : ℝ) + b - 2451545) (73 / 10 ^ 11) 36525 := by
  have h0 : Is (DJ00 : F64) 2451545 := by
    have := Is.lit_int 2451545 (by norm_num)
    push_cast at this
    have e : (DJ00 : F64) = Arith.lit 2451545 := by unfold DJ00; norm_num
    rw [e]; exact this
  have h2 := (Near.of_is hx).sub (Near.of_is h0) (M := 6451545) (by
    rw [add_zero, add_zero]
    refine (abs_sub _ _).trans ?_
    norm_num
    linarith) (by norm_num)
  have e3 : |((a : ℝ) - (2451545 : ℚ)) + b| ≤ 36525 := by
    refine le_trans (le_of_eq (congrArg _ ?_)) hd
    push_cast; ring
  have h3 := h2.add (Near.of_is hy) (M := 36526) (by
    refine le_trans (add_le_add_left (add_le_add_left e3 _) _) ?_
    norm_num) (by norm_num)
  exact ⟨(h3.congr (by push_cast; ring)).mono (by norm_num), hd⟩

/-- Julian years and Julian centuries from days. -/
theorem years_of_days {z : F64} {D : ℝ} (h : NB z D (10 / 10 ^ 10) 36525) :
    NB (z /. DJY) (D / 365.25) (3 / 10 ^ 12) 100 := by
  have h1 : Is (DJY : F64) 365.25 := by
    unfold DJY
    refine Is.lit_exact _ ?_ (small_le_HUGE (by norm_num))
    have := RepQ.dyadic 1461 2 (by norm_num) (by norm_num)
    norm_num at this ⊢; exact this
  have n1 := NB.of_is' (a := 365.25) (M := 366) h1 (by norm_num) (by norm_num)
  exact h.div n1 (β := 365.25) (by norm_num) (by norm_num) (by norm_num)

theorem centuries_of_days {x y : F64} {D : ℝ} (h : NB ((x -. DJ00) +. y) D (10 / 10 ^ 10) 36525) :
    NB (centuries (x, y)) (D / 36525) (3 / 10 ^ 14) 1 := by
  have h1 : Is (DJC : F64) 36525 := by
    have := Is.lit_int 36525 (by norm_num)
    push_cast at this
    have e : (DJC : F64) = Arith.lit 36525 := by unfold DJC; norm_num
    rw [e]; exact this
  have n1 := NB.of_is' (a := 36525) (M := 36525) h1 (by norm_num) (by norm_num)
  exact h.div n1 (β := 36525) (by norm_num) (by norm_num) (by norm_num)

/-- Ecliptic to ICRF. -/
theorem icrf_nb {x y z : F64} {a b c : ℝ} {e A : ℝ} (hx : NB x a e A) (hy : NB y b e A) (hz : NB z c e A) (he : e ≤ 1)
    (hA : A ≤ 2) (h0 : 1 / 10 ^ 3 ≤ A) :
    NB (toICRF ⟨x, y, z⟩).x (toICRF ⟨a, b, c⟩).x (e * 1.35 + A * (8 / 10 ^ 16)) (A * 1.4) ∧
    NB (toICRF ⟨x, y, z⟩).y (toICRF ⟨a, b, c⟩).y (e * 1.35 + A * (8 / 10 ^ 16)) (A * 1.4) ∧
    NB (toICRF ⟨x, y, z⟩).z (toICRF ⟨a, b, c⟩).z (e * 1.35 + A * (8 / 10 ^ 16)) (A * 1.4) := by
  have e0 := hx.e_nonneg
  have l1 := NB.lit 0.000000211284 (M := 3 / 10 ^ 7) (E := 4 / 10 ^ 23) (by norm_num [abs_le])
  have l2 := NB.lit (-0.000000091603) (M := 3 / 10 ^ 7) (E := 4 / 10 ^ 23) (by norm_num [abs_le])
  have l3 := NB.lit (-0.000000230286) (M := 3 / 10 ^ 7) (E := 4 / 10 ^ 23) (by norm_num [abs_le])
  have l4 := NB.lit 0.917482137087 (M := 0.918) (E := 1.1 / 10 ^ 16) (by norm_num [abs_le])
  have l5 := NB.lit (-0.397776982902) (M := 0.398) (E := 0.5 / 10 ^ 16) (by norm_num [abs_le])
  have l6 := NB.lit 0.397776982902 (M := 0.398) (E := 0.5 / 10 ^ 16) (by norm_num [abs_le])
  refine ⟨?_, ?_, ?_⟩
  · have p1 := l1.mul hy (E := e * (4 / 10 ^ 7) + A / 10 ^ 20) (M := A * (3 / 10 ^ 7)) ⟨by norm_num at he hA h0 ⊢; linarith, by linarith, by norm_num at he hA h0 ⊢; linarith⟩
    have p2 := l2.mul hz (E := e * (4 / 10 ^ 7) + A / 10 ^ 20) (M := A * (3 / 10 ^ 7)) ⟨by norm_num at he hA h0 ⊢; linarith, by linarith, by norm_num at he hA h0 ⊢; linarith⟩
    have s1 := hx.add p1 (E := e * 1.1 + A * (1.2 / 10 ^ 16)) (M := A * 1.1) ⟨by norm_num at he hA h0 ⊢; linarith, by linarith, by norm_num at he hA h0 ⊢; linarith⟩
    exact s1.add p2 ⟨by norm_num at he hA h0 ⊢; linarith, by linarith, by norm_num at he hA h0 ⊢; linarith⟩
  · have p1 := l3.mul hx (E := e * (4 / 10 ^ 7) + A / 10 ^ 20) (M := A * (3 / 10 ^ 7)) ⟨by norm_num at he hA h0 ⊢; linarith, by linarith, by norm_num at he hA h0 ⊢; linarith⟩
    have p2 := l4.mul hy (E := e * 0.9181 + A * (2.2 / 10 ^ 16)) (M := A * 0.918) ⟨by norm_num at he hA h0 ⊢; linarith, by linarith, by norm_num at he hA h0 ⊢; linarith⟩
    have p3 := l5.mul hz (E := e * 0.3981 + A * (1 / 10 ^ 16)) (M := A * 0.398) ⟨by norm_num at he hA h0 ⊢; linarith, by linarith, by norm_num at he hA h0 ⊢; linarith⟩
    have s1 := p1.add p2 (E := e * 0.9182 + A * (3.4 / 10 ^ 16)) (M := A * 0.919) ⟨by norm_num at he hA h0 ⊢; linarith, by linarith, by norm_num at he hA h0 ⊢; linarith⟩
    exact s1.add p3 ⟨by norm_num at he hA h0 ⊢; linarith, by linarith, by norm_num at he hA h0 ⊢; linarith⟩
  · have p2 := l6.mul hy (E := e * 0.3981 + A * (1 / 10 ^ 16)) (M := A * 0.398) ⟨by norm_num at he hA h0 ⊢; linarith, by linarith, by norm_num at he hA h0 ⊢; linarith⟩
    have p3 := l4.mul hz (E := e * 0.9181 + A * (2.2 / 10 ^ 16)) (M := A * 0.918) ⟨by norm_num at he hA h0 ⊢; linarith, by linarith, by norm_num at he hA h0 ⊢; linarith⟩
    exact p2.add p3 ⟨by norm_num at he hA h0 ⊢; linarith, by linarith, by norm_num at he hA h0 ⊢; linarith⟩

/-- Component-wise accuracy of a vector. -/
def VB (v : Vec3 F64) (w : Vec3 ℝ) (e M : ℝ) : Prop := NB v.x w.x e M ∧ NB v.y w.y e M ∧ NB v.z w.z e M

theorem VB.mono {v : Vec3 F64} {w : Vec3 ℝ} {e M E A : ℝ} (h : VB v w e M) (hE : e ≤ E ∧ M ≤ A) : VB v w E A :=
  ⟨h.1.mono hE, h.2.1.mono hE, h.2.2.mono hE⟩

section
variable {α : Type} [Arith α] [Libm α]

/-- The result of `EarthPosVel::from` as folds. -/
def epvFold (d : α × α) : EarthPosVel α :=
  let t := ((d.1 -. DJ00) +. d.2) /. DJY
  let x := axisFold t (t *. t) 0
  let y := axisFold t (t *. t) 1
  let z := axisFold t (t *. t) 2
  { heliocentric := ⟨toICRF ⟨x.1, y.1, z.1⟩, toICRF ⟨x.2.1, y.2.1, z.2.1⟩⟩
    barycentric := ⟨toICRF ⟨x.2.2.1, y.2.2.1, z.2.2.1⟩, toICRF ⟨x.2.2.2, y.2.2.2, z.2.2.2⟩⟩
    warning := !(Arith.abs t <. lit 100) }

theorem fromTDB_fold (d : α × α) : EarthPosVel.fromTDB d = .ok (epvFold d) := by
  unfold EarthPosVel.fromTDB epvFold
  simp only [axisPosVel_ok, ok_bind]
  rfl
end

/-- `EarthPosVel::from(TDB)` in binary64. -/
theorem epv_acc [Libm F64] (hL : LibmAcc) {x y : F64} {a b : ℝ} (h : NB ((x -. DJ00) +. y) (a + b - 2451545) (10 / 10 ^ 10) 36525) :
    ∃ (e : EarthPosVel F64) (r : EarthPosVel ℝ), EarthPosVel.fromTDB (x, y) = .ok e ∧ EarthPosVel.fromTDB (a, b) = .ok r ∧
      VB e.heliocentric.p r.heliocentric.p (3 / 10 ^ 11) 1.5 ∧ VB e.heliocentric.v r.heliocentric.v (6 / 10 ^ 13) 0.03 ∧
      VB e.barycentric.p r.barycentric.p (3.2 / 10 ^ 11) 1.5 ∧ VB e.barycentric.v r.barycentric.v (6 / 10 ^ 13) 0.03 := by
  have ht := years_of_days h
  have hd : Is (DJY : F64) 365.25 := by
    unfold DJY
    refine Is.lit_exact _ ?_ (small_le_HUGE (by norm_num))
    have := RepQ.dyadic 1461 2 (by norm_num) (by norm_num)
    norm_num at this ⊢; exact this
  have n1 := NB.of_is' (a := 365.25) (M := 366) hd (by norm_num) (by norm_num)
  have hv := fun k => (helio_f hL ht k).2.div n1 (β := 365.25) (E := 3.9 / 10 ^ 13) (M := 0.0176) (by norm_num) (by norm_num) (by norm_num)
  have hw := fun k => (bary_f hL ht k).2.div n1 (β := 365.25) (E := 4.2 / 10 ^ 13) (M := 0.0177) (by norm_num) (by norm_num) (by norm_num)
  refine ⟨_, _, fromTDB_fold (x, y), fromTDB_real (a, b), ?_⟩
  unfold epvFold earthAt years axisFold
  simp only
  refine ⟨?_, ?_, ?_, ?_⟩
  · exact VB.mono (icrf_nb (helio_f hL ht 0).1 (helio_f hL ht 1).1 (helio_f hL ht 2).1 (by norm_num) (by norm_num) (by norm_num))
      (by norm_num)
  · exact VB.mono (icrf_nb (hv 0) (hv 1) (hv 2) (by norm_num) (by norm_num) (by norm_num)) (by norm_num)
  · exact VB.mono (icrf_nb (bary_f hL ht 0).1 (bary_f hL ht 1).1 (bary_f hL ht 2).1 (by norm_num) (by norm_num) (by norm_num))
      (by norm_num)
  · exact VB.mono (icrf_nb (hw 0) (hw 1) (hw 2) (by norm_num) (by norm_num) (by norm_num)) (by norm_num)

end Verif
