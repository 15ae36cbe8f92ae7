import Verif.Props.EarthAccuracy
import Verif.Props.EarthMotion
import Verif.Lemmas.MeanSun
import Verif.Lemmas.Angle3
import Mathlib.Analysis.Complex.Exponential

/-!
# C99: the axes of the ephemeris

The comment above the constants of `epv00.for` gives the Euler angles from which they were computed: a rotation by -23 26 21.4091
about the x axis and one by 0.0475 arcseconds about the z axis.
-/

namespace Verif
open Arith Matrix Spec

/-- Cosine and sine from fourteen terms of the series. -/
theorem cos_sin_series (x : ℝ) (hx : |x| ≤ 1) :
    |Real.cos x - (1 - x ^ 2 / 2 + x ^ 4 / 24 - x ^ 6 / 720 + x ^ 8 / 40320 - x ^ 10 / 3628800 + x ^ 12 / 479001600)| ≤ |x| ^ 14 / 8e10 ∧
    |Real.sin x - (x - x ^ 3 / 6 + x ^ 5 / 120 - x ^ 7 / 5040 + x ^ 9 / 362880 - x ^ 11 / 39916800 + x ^ 13 / 6227020800)| ≤
      |x| ^ 14 / 8e10 := by
  have hn : ‖(x : ℂ) * Complex.I‖ = |x| := by simp
  have key := Complex.exp_bound (x := x * Complex.I) (by rw [hn]; exact hx) (n := 14) (by norm_num)
  rw [hn] at key
  have e : Complex.exp (x * Complex.I) - ∑ m ∈ Finset.range 14, ((x : ℂ) * Complex.I) ^ m / m.factorial =
      ((Real.cos x - (1 - x ^ 2 / 2 + x ^ 4 / 24 - x ^ 6 / 720 + x ^ 8 / 40320 - x ^ 10 / 3628800 + x ^ 12 / 479001600) : ℝ) : ℂ) +
      ((Real.sin x - (x - x ^ 3 / 6 + x ^ 5 / 120 - x ^ 7 / 5040 + x ^ 9 / 362880 - x ^ 11 / 39916800 + x ^ 13 / 6227020800) : ℝ) : ℂ) *
        Complex.I := by
    rw [Complex.exp_mul_I]
    have i2 : Complex.I ^ 2 = -1 := Complex.I_sq
    have p : ∀ k : ℕ, Complex.I ^ (2 * k) = (-1) ^ k := fun k => by rw [pow_mul, i2]
    have q : ∀ k : ℕ, Complex.I ^ (2 * k + 1) = (-1) ^ k * Complex.I := fun k => by rw [pow_succ, p]
    have h3 : Complex.I ^ 3 = -Complex.I := by rw [q 1]; ring
    have h4 := Complex.I_pow_four
    have h5 := q 2; have h6 := p 3; have h7 := q 3; have h8 := p 4
    have h9 := q 4; have h10 := p 5; have h11 := q 5; have h12 := p 6; have h13 := q 6
    norm_num at h5 h6 h7 h8 h9 h10 h11 h12 h13
    simp only [Finset.sum_range_succ, Finset.sum_range_zero, mul_pow, i2, h3, h4, h5, h6, h7, h8, h9, h10, h11, h12, h13, Nat.factorial]
    push_cast
    ring
  rw [e] at key
  have hc : |x| ^ 14 * (((14 : ℕ).succ : ℝ) * (((14 : ℕ).factorial : ℝ) * ((14 : ℕ) : ℝ))⁻¹) ≤ |x| ^ 14 / 8e10 := by
    rw [div_eq_mul_inv]
    refine mul_le_mul_of_nonneg_left ?_ (by positivity)
    norm_num [Nat.factorial]
  have key := key.trans hc
  set A := Real.cos x - (1 - x ^ 2 / 2 + x ^ 4 / 24 - x ^ 6 / 720 + x ^ 8 / 40320 - x ^ 10 / 3628800 + x ^ 12 / 479001600)
  set B := Real.sin x - (x - x ^ 3 / 6 + x ^ 5 / 120 - x ^ 7 / 5040 + x ^ 9 / 362880 - x ^ 11 / 39916800 + x ^ 13 / 6227020800)
  constructor
  · have := Complex.abs_re_le_norm ((A : ℂ) + (B : ℂ) * Complex.I)
    simp at this
    exact this.trans key
  · have := Complex.abs_im_le_norm ((A : ℂ) + (B : ℂ) * Complex.I)
    simp at this
    exact this.trans key

/-- The rotation of the comment. -/
noncomputable def Spec.epvAxes : Matrix (Fin 3) (Fin 3) ℝ :=
  R3 (0.0475 / 3600 * (Real.pi / 180)) * R1 (-((23 + 26 / 60 + 21.4091 / 3600) * (Real.pi / 180)))

theorem axes_entries : ∀ i j, |(!![1, 0.000000211284, -0.000000091603; -0.000000230286, 0.917482137087, -0.397776982902;
    0, 0.397776982902, 0.917482137087] - epvAxes : M3) i j| ≤ 5.2e-13 := by
  have p1 := Real.pi_gt_d20
  have p2 := Real.pi_lt_d20
  set ε := (23 + 26 / 60 + 21.4091 / 3600) * (Real.pi / 180) with hε
  set ζ := 0.0475 / 3600 * (Real.pi / 180) with hζ
  have near : |ε - 0.40909261562980698| ≤ 1e-17 := by
    rw [hε, abs_le]; constructor <;> norm_num at p1 p2 ⊢ <;> linarith
  have z1 : 2.302864985e-7 ≤ ζ := by rw [hζ]; norm_num at p1 p2 ⊢; linarith
  have z2 : ζ ≤ 2.302864986e-7 := by rw [hζ]; norm_num at p1 p2 ⊢; linarith
  obtain ⟨c1, s1⟩ := cos_sin_series 0.40909261562980698 (by norm_num [abs_le])
  have c2 : |Real.cos ε - Real.cos 0.40909261562980698| ≤ 1e-17 := by
    have := sin_near (Real.pi / 2 - ε) (Real.pi / 2 - 0.40909261562980698) 1e-17 (by rw [abs_sub_comm]; simpa using near)
    rwa [Real.sin_pi_div_two_sub, Real.sin_pi_div_two_sub] at this
  have s2 := sin_near _ _ _ near
  have cz1 : 1 - 1e-13 ≤ Real.cos ζ := by
    have := Real.one_sub_sq_div_two_le_cos (x := ζ)
    have : ζ ^ 2 ≤ (2.302864986e-7) ^ 2 := pow_le_pow_left₀ (le_trans (by norm_num) z1) z2 2
    norm_num at *; linarith
  have cz2 := Real.cos_le_one ζ
  have sz1 : 2.3028649e-7 ≤ Real.sin ζ := by
    have := Real.sin_gt_sub_cube (x := ζ) (lt_of_lt_of_le (by norm_num) z1)
    have : ζ ^ 3 ≤ (2.302864986e-7) ^ 3 := pow_le_pow_left₀ (le_trans (by norm_num) z1) z2 3
    norm_num at *; linarith
  have sz2 : Real.sin ζ ≤ 2.302864986e-7 := (Real.sin_le (le_trans (by norm_num) z1)).trans z2
  rw [abs_le] at c1 s1 c2 s2
  norm_num at c1 s1 c2 s2
  have C1 : 0.91748213708696 ≤ Real.cos ε := by norm_num; linarith [c1.1, c2.1]
  have C2 : Real.cos ε ≤ 0.91748213708697 := by norm_num; linarith [c1.2, c2.2]
  have S1 : 0.39777698290165 ≤ Real.sin ε := by norm_num; linarith [s1.1, s2.1]
  have S2 : Real.sin ε ≤ 0.39777698290166 := by norm_num; linarith [s1.2, s2.2]
  have e : epvAxes = !![Real.cos ζ, Real.sin ζ * Real.cos ε, -(Real.sin ζ * Real.sin ε);
      -Real.sin ζ, Real.cos ζ * Real.cos ε, -(Real.cos ζ * Real.sin ε); 0, Real.sin ε, Real.cos ε] := by
    unfold epvAxes
    ext i j
    fin_cases i <;> fin_cases j <;> simp [R1, R3, Matrix.mul_apply, Fin.sum_univ_three, ← hε, ← hζ]
  rw [e]
  clear c1 s1 c2 s2
  generalize Real.cos ε = c at *
  generalize Real.sin ε = s at *
  generalize Real.cos ζ = C at *
  generalize Real.sin ζ = S at *
  have m1 := mul_le_mul sz1 C1 (by norm_num) (le_trans (by norm_num) sz1)
  have m2 := mul_le_mul sz2 C2 (le_trans (by norm_num) C1) (by norm_num)
  have m3 := mul_le_mul sz1 S1 (by norm_num) (le_trans (by norm_num) sz1)
  have m4 := mul_le_mul sz2 S2 (le_trans (by norm_num) S1) (by norm_num)
  have m5 := mul_le_mul cz1 C1 (by norm_num) (le_trans (by norm_num) cz1)
  have m6 := mul_le_mul cz2 C2 (le_trans (by norm_num) C1) (by norm_num)
  have m7 := mul_le_mul cz1 S1 (by norm_num) (le_trans (by norm_num) cz1)
  have m8 := mul_le_mul cz2 S2 (le_trans (by norm_num) S1) (by norm_num)
  norm_num at m1 m2 m3 m4 m5 m6 m7 m8 C1 C2 S1 S2 cz1 sz1 sz2
  intro i j
  fin_cases i <;> fin_cases j <;> simp <;> (try rw [abs_le]) <;> (try constructor) <;> norm_num <;> linarith

/-- Turning to the equatorial axes of the reference. -/
theorem icrf_near (v : Vec3 ℝ) : len ((toICRF v).toVec - epvAxes *ᵥ v.toVec) ≤ 1.6e-12 * len v.toVec := by
  have h := MB.of_entries axes_entries
  have e : (toICRF v).toVec - epvAxes *ᵥ v.toVec = (!![1, 0.000000211284, -0.000000091603; -0.000000230286, 0.917482137087, -0.397776982902;
      0, 0.397776982902, 0.917482137087] - epvAxes : M3) *ᵥ v.toVec := by
    rw [sub_mulVec]
    congr 1
    rw [toICRF_real]
    ext i
    fin_cases i <;> simp [Vec3.toVec, Matrix.mulVec, dotProduct, Fin.sum_univ_three] <;> ring
  rw [e]
  exact (h.mono (by norm_num)).vec _

/-- **C99.** Both positions and both velocities are the published series in ecliptic coordinates (and their derivatives), turned
to the equator by the Euler angles given with the reference, up to `1.6e-12` of their length. -/
theorem C99_icrf_axes (a b : ℝ) (e : EarthPosVel ℝ) (he : EarthPosVel.fromTDB (a, b) = .ok e) (u w u' w' : Fin 3 → ℝ)
    (hu : ∀ k, u k = helioEcl k ((a + b - 2451545) / 365.25)) (hw : ∀ k, w k = sunEcl k ((a + b - 2451545) / 365.25))
    (hu' : ∀ k, HasDerivAt (fun s => helioEcl k ((s - 2451545) / 365.25)) (u' k) (a + b))
    (hw' : ∀ k, HasDerivAt (fun s => sunEcl k ((s - 2451545) / 365.25)) (w' k) (a + b)) :
    len (e.heliocentric.p.toVec - epvAxes *ᵥ u) ≤ 1.6e-12 * len u ∧
    len (e.heliocentric.v.toVec - epvAxes *ᵥ u') ≤ 1.6e-12 * len u' ∧
    len (e.barycentric.p.toVec - epvAxes *ᵥ (u + w)) ≤ 1.6e-12 * len (u + w) ∧
    len (e.barycentric.v.toVec - epvAxes *ᵥ (u' + w')) ≤ 1.6e-12 * len (u' + w') := by
  rw [fromTDB_real] at he
  obtain rfl := Except.ok.inj he
  have d1 : ∀ k, u' k = helioEcl' k (years (a + b)) / 365.25 := fun k =>
    (hu' k).unique (deriv_comp (hasDerivAt_helioEcl _ k))
  have d2 : ∀ k, w' k = sunEcl' k (years (a + b)) / 365.25 := fun k =>
    (hw' k).unique (deriv_comp (hasDerivAt_sunEcl _ k))
  have go : ∀ (v : Vec3 ℝ) (x : Fin 3 → ℝ), v.toVec = x → len ((toICRF v).toVec - epvAxes *ᵥ x) ≤ 1.6e-12 * len x := by
    rintro v x rfl; exact icrf_near v
  refine ⟨go _ _ ?_, go _ _ ?_, go _ _ ?_, go _ _ ?_⟩ <;> ext k <;> simp only [Pi.add_apply, hu, hw, d1, d2, years] <;>
    fin_cases k <;> simp [Vec3.toVec] <;> ring

theorem axes_len {x u : Fin 3 → ℝ} {e : ℝ} (h : len (x - epvAxes *ᵥ u) ≤ e) : |len x - len u| ≤ e := by
  have r : len (epvAxes *ᵥ u) = len u := len_mulVec (by
    unfold epvAxes
    rw [transpose_mul, Matrix.mul_assoc, ← Matrix.mul_assoc (R3 _)ᵀ]
    have r3 : ∀ t, (R3 t)ᵀ * R3 t = 1 := fun t => by
      ext i j
      fin_cases i <;> fin_cases j <;> simp [R3, Matrix.mul_apply, Fin.sum_univ_three] <;> nlinarith [Real.sin_sq_add_cos_sq t]
    have r1 : ∀ t, (R1 t)ᵀ * R1 t = 1 := fun t => by
      ext i j
      fin_cases i <;> fin_cases j <;> simp [R1, Matrix.mul_apply, Fin.sum_univ_three] <;> nlinarith [Real.sin_sq_add_cos_sq t]
    rw [r3, Matrix.one_mul, r1]) u
  have t1 := len_add (x - epvAxes *ᵥ u) (epvAxes *ᵥ u)
  have t2 := len_sub x (x - epvAxes *ᵥ u)
  rw [sub_add_cancel] at t1
  rw [sub_sub_cancel] at t2
  rw [r] at t1 t2
  rw [abs_le]
  constructor <;> linarith

/-- **C99.** The distance from the Sun and the speed are those of the series. -/
theorem C99_distance_and_speed (a b : ℝ) (e : EarthPosVel ℝ) (he : EarthPosVel.fromTDB (a, b) = .ok e) (u u' : Fin 3 → ℝ)
    (hu : ∀ k, u k = helioEcl k ((a + b - 2451545) / 365.25))
    (hu' : ∀ k, HasDerivAt (fun s => helioEcl k ((s - 2451545) / 365.25)) (u' k) (a + b)) :
    |e.heliocentric.p.norm - len u| ≤ 1.6e-12 * len u ∧ |e.heliocentric.v.norm - len u'| ≤ 1.6e-12 * len u' := by
  obtain ⟨h1, h2, -⟩ := C99_icrf_axes a b e he u (fun k => sunEcl k ((a + b - 2451545) / 365.25)) u' _ hu (fun _ => rfl)
    hu' (fun k => deriv_comp (hasDerivAt_sunEcl _ k))
  have n : ∀ v : Vec3 ℝ, v.norm = len v.toVec := fun v => by rw [norm_real]; rfl
  rw [n, n]
  exact ⟨axes_len h1, axes_len h2⟩

/-- **C99.** In binary64, for every library whose sine and cosine are within `2^-50`: each coordinate within `3.2e-11` astronomical
units (positions) and `6.3e-13` units per day (velocities) of the turned series. -/
theorem C99_icrf_axes_f64 [Libm F64] (hL : LibmAcc) (x y : F64) (a b : ℚ) (hx : Is x a) (hy : Is y b) (ha : |a| ≤ 4000000)
    (h : |a + b - 2451545| ≤ 36525) (u u' : Fin 3 → ℝ) (hu : ∀ k, u k = helioEcl k (((a + b : ℝ) - 2451545) / 365.25))
    (hu' : ∀ k, HasDerivAt (fun s => helioEcl k ((s - 2451545) / 365.25)) (u' k) (a + b)) :
    ∃ e : EarthPosVel F64, EarthPosVel.fromTDB (x, y) = .ok e ∧
      VecNear e.heliocentric.p ⟨(epvAxes *ᵥ u) 0, (epvAxes *ᵥ u) 1, (epvAxes *ᵥ u) 2⟩ 3.2e-11 ∧
      VecNear e.heliocentric.v ⟨(epvAxes *ᵥ u') 0, (epvAxes *ᵥ u') 1, (epvAxes *ᵥ u') 2⟩ 6.3e-13 := by
  obtain ⟨e, r, he, hr, hp, hv, -⟩ := C68_ephemeris_f64 hL x y a b hx hy ha h
  have h' : |(a : ℝ) + b - 2451545| ≤ 36525 := by exact_mod_cast h
  obtain ⟨h1, h2, -⟩ := C99_icrf_axes a b r hr u (fun k => sunEcl k ((a + b - 2451545) / 365.25)) u' _ hu (fun _ => rfl)
    hu' (fun k => deriv_comp (hasDerivAt_sunEcl _ k))
  obtain ⟨k1, k2⟩ := C99_distance_and_speed a b r hr u u' hu hu'
  obtain ⟨-, d⟩ := C36_distance a b h' r hr
  obtain ⟨-, v⟩ := C89_speed a b h' r hr
  have c : ∀ (z : Fin 3 → ℝ) (i : Fin 3), |z i| ≤ len z := fun z i => by
    rw [← Real.sqrt_sq_eq_abs]
    refine Real.sqrt_le_sqrt ?_
    have := sq_nonneg (z 0); have := sq_nonneg (z 1); have := sq_nonneg (z 2)
    fin_cases i <;> simp <;> linarith
  have go : ∀ {t : F64} {p q E e' : ℝ}, Near t p E → |p - q| ≤ e' → Near t q (E + e') := by
    rintro t p q E e' ⟨z, iz, ez⟩ h
    refine ⟨z, iz, ?_⟩
    rw [abs_le] at ez h ⊢
    constructor <;> linarith [ez.1, ez.2, h.1, h.2]
  have mono : ∀ {t : F64} {p E E' : ℝ}, Near t p E → E ≤ E' → Near t p E' := by
    rintro t p E E' ⟨z, iz, ez⟩ h
    exact ⟨z, iz, ez.trans h⟩
  rw [abs_le] at k1 k2
  norm_num at k1 k2 d v
  have a1 : ∀ i, |(r.heliocentric.p.toVec - epvAxes *ᵥ u) i| ≤ 2e-12 := fun i => (c _ i).trans (h1.trans (by norm_num; linarith [k1.1]))
  have a2 : ∀ i, |(r.heliocentric.v.toVec - epvAxes *ᵥ u') i| ≤ 3e-14 := fun i => (c _ i).trans (h2.trans (by norm_num; linarith [k2.1]))
  exact ⟨e, he, ⟨mono (go hp.1 (a1 0)) (by norm_num), mono (go hp.2.1 (a1 1)) (by norm_num), mono (go hp.2.2 (a1 2)) (by norm_num)⟩,
    ⟨mono (go hv.1 (a2 0)) (by norm_num), mono (go hv.2.1 (a2 1)) (by norm_num), mono (go hv.2.2 (a2 2)) (by norm_num)⟩⟩

/-- J2000.0, with a library that exists. -/
example : ∃ L : Libm F64, @LibmAcc L ∧ Is (lit 2451545 : F64) 2451545 ∧ Is (lit 0 : F64) 0 ∧ |(2451545 : ℚ)| ≤ 4000000 ∧
    |(2451545 : ℚ) + 0 - 2451545| ≤ 36525 ∧
    ∃ u' : Fin 3 → ℝ, ∀ k, HasDerivAt (fun s => helioEcl k ((s - 2451545) / 365.25)) (u' k) (2451545 + 0) := by
  refine ⟨goodLibm, exists_libmAcc, ?_, zero_is, by norm_num, by norm_num, _, fun k => deriv_comp (hasDerivAt_helioEcl _ k)⟩
  have := Is.lit_int 2451545 (by norm_num)
  push_cast at this
  exact this

end Verif
