import Verif.Lemmas.SunRate
import Verif.Lemmas.MeanSunVec
import Verif.Lemmas.MeanSunDates

/-!
# The motion of the Sun in declination

Rates of the pole of date and of the projection of the direction of the Earth on a fixed direction.
-/

namespace Verif
open Arith Matrix Spec

/-! ## The pole of date moves slowly -/

/-- Frequency of the argument of a row, in `10^-4` arc seconds per century. -/
def rowFreq (r : NutRow) : ℕ :=
  (r.l * 17179159232178 + r.lp * 1295965810481 + r.f * 17395272628478 + r.d * 16029616012090 - r.om * 69628905431).natAbs

theorem nutRow_freq (r : NutRow) : Rate r.arg (rowFreq r / 10 ^ 4 * arcsec) := by
  intro s t _ _
  have e : r.arg s - r.arg t = (((r.l * 17179159232178 + r.lp * 1295965810481 + r.f * 17395272628478 +
      r.d * 16029616012090 - r.om * 69628905431 : ℤ) : ℝ) / 10 ^ 4 * arcsec) * (s - t) := by unfold NutRow.arg; push_cast; ring
  rw [e, abs_mul, abs_mul, abs_div, abs_of_pos arcsec_pos, abs_of_pos (show (0 : ℝ) < 10 ^ 4 by norm_num)]
  refine mul_le_mul_of_nonneg_right (mul_le_mul_of_nonneg_right (div_le_div_of_nonneg_right ?_ (by norm_num)) arcsec_pos.le) (abs_nonneg _)
  unfold rowFreq
  rw [Nat.cast_natAbs, Int.cast_abs]

/-- Rate of a sum of terms `(x + y t) trig + z trig`, each with its own frequency. -/
theorem nut_freq (T : ℝ → ℝ) (U : ℝ → ℝ) (hT : T = Real.sin ∧ U = Real.cos ∨ T = Real.cos ∧ U = Real.sin)
    (x y z : NutRow → ℤ) (N : ℕ)
    (hN : (nut00b.map fun r => ((x r).natAbs + (y r).natAbs + (z r).natAbs) * rowFreq r + 10 ^ 10 * (y r).natAbs).sum ≤ N) :
    Rate (fun t => (nut00b.map fun r => ((x r : ℝ) + y r * t) * T (r.arg t) + z r * U (r.arg t)).sum) (arcsec / 10 ^ 4 * N) := by
  have a1 : 4.8e-6 ≤ arcsec := by
    have := Real.pi_gt_d6
    unfold arcsec; norm_num at this ⊢; linarith
  have key : ∀ r ∈ nut00b, Lip (fun t => ((x r : ℝ) + y r * t) * T (r.arg t) + z r * U (r.arg t))
      (arcsec / 10 ^ 4 * ((((x r).natAbs + (y r).natAbs + (z r).natAbs) * rowFreq r + 10 ^ 10 * (y r).natAbs : ℕ) : ℝ))
      (2 * (|(x r : ℝ)| + |(y r : ℝ)| + |(z r : ℝ)|)) := by
    intro r hr
    have hA := nutRow_freq r
    have h1 := (Lip.const (x r)).add ((Lip.const (y r)).mul Lip.id)
    have hTL : Lip (fun t => T (r.arg t)) (rowFreq r / 10 ^ 4 * arcsec) 1 ∧ Lip (fun t => U (r.arg t)) (rowFreq r / 10 ^ 4 * arcsec) 1 := by
      rcases hT with ⟨rfl, rfl⟩ | ⟨rfl, rfl⟩
      · exact ⟨.sin hA, .cos hA⟩
      · exact ⟨.cos hA, .sin hA⟩
    have := (h1.mul hTL.1).add ((Lip.const (z r)).mul hTL.2)
    have hx := abs_nonneg (x r : ℝ)
    have hy := abs_nonneg (y r : ℝ)
    have hz := abs_nonneg (z r : ℝ)
    refine this.mono ?_ ?_
    · simp only [Nat.cast_add, Nat.cast_mul, Nat.cast_pow, Nat.cast_ofNat, Nat.cast_natAbs, Int.cast_abs]
      have := mul_le_mul_of_nonneg_right a1 hy
      norm_num at this ⊢
      ring_nf at this ⊢
      linarith
    · linarith
  refine (Lip.sum nut00b key).rate.mono ?_
  exact sum_le_of_nat _ _ _ _ (by have := arcsec_pos; positivity) (fun _ _ => le_rfl) N hN

theorem nut_scale {f : ℝ → ℝ} {N : ℕ} {K : ℝ} (h : Rate f (arcsec / 10 ^ 4 * N)) (hK : 4.8482e-6 ^ 2 / 10 ^ 11 * N ≤ K) (c : ℝ) :
    Rate (fun t => (f t / 10 ^ 7 - c) * arcsec) K := by
  intro s t hs ht
  have h1 := h s t hs ht
  rw [show (f s / 10 ^ 7 - c) * arcsec - (f t / 10 ^ 7 - c) * arcsec = (f s - f t) * (arcsec / 10 ^ 7) by ring, abs_mul,
    abs_of_pos (arcsec_div_pos _)]
  refine (mul_le_mul_of_nonneg_right h1 (arcsec_div_pos _).le).trans ?_
  rw [mul_right_comm]
  refine mul_le_mul_of_nonneg_right (le_trans ?_ hK) (abs_nonneg _)
  rw [show arcsec / 10 ^ 4 * N * (arcsec / 10 ^ 7) = arcsec ^ 2 / 10 ^ 11 * N by ring]
  have := pow_le_pow_left₀ arcsec_pos.le arcsec_le 2
  gcongr

theorem nutPsi_freq : Rate nut00bPsi 0.048 := by
  have h := nut_freq Real.sin Real.cos (.inl ⟨rfl, rfl⟩) NutRow.ps NutRow.pst NutRow.pc 200000000000000000000 (by decide +kernel)
  have := nut_scale h (K := 0.048) (by norm_num) 0.000135
  exact this.congr fun t => by unfold nut00bPsi; rfl

theorem nutEps_freq : Rate nut00bEps 0.0195 := by
  have h := nut_freq Real.cos Real.sin (.inr ⟨rfl, rfl⟩) NutRow.ec NutRow.ect NutRow.es 81000000000000000000 (by decide +kernel)
  have := nut_scale h (K := 0.0195) (by norm_num) (-0.000388)
  refine this.congr fun t => ?_
  unfold nut00bEps; ring

/-- The bias, precession and nutation matrix turns by less than a tenth of a radian per century. -/
theorem npb_slow {a b a' b' : ℝ} (h : |a + b - 2451545| ≤ 36525) (h' : |a' + b' - 2451545| ≤ 36525) {d : ℝ}
    (hd : d = |(a + b - 2451545) / 36525 - (a' + b' - 2451545) / 36525|) :
    MB ((precessionNutation (a, b)).toMatrix - (precessionNutation (a', b')).toMatrix) (0.0975 * d + 1e-20) :=
  (npb_lip_of nutPsi_freq nutEps_freq h h' hd).mono (by norm_num)

/-- The pole of date in celestial coordinates: the third row of the celestial to intermediate matrix. -/
noncomputable def poleRow (a b : ℝ) : Fin 3 → ℝ := fun i => (celestialToIntermediate (a, b)).toMatrix 2 i

theorem poleRow_eq {a b : ℝ} (h : |a + b - 2451545| ≤ 36525) :
    ∃ x y k : ℝ, poleRow a b = ![x, y, 1 - k * (x ^ 2 + y ^ 2)] ∧ x = (precessionNutation (a, b)).toMatrix 2 0 ∧
      y = (precessionNutation (a, b)).toMatrix 2 1 ∧ 0 ≤ k ∧ k ≤ 0.51 ∧ |x - precessionAngle (a + b - 2451545)| ≤ 1.49e-4 ∧ |y| ≤ 2.55e-4 ∧
      |x| ≤ 0.009868 ∧ k = 1 / (1 + Real.sqrt (1 - (x ^ 2 + y ^ 2))) := by
  obtain ⟨h1, h2⟩ := pole_near h
  have hp : |precessionAngle (a + b - 2451545)| ≤ 0.009718 := by
    have ht : |(a + b - 2451545) / 36525| ≤ 1 := by
      rw [abs_div, abs_of_pos (show (0 : ℝ) < 36525 by norm_num), div_le_one (by norm_num)]; exact h
    unfold precessionAngle
    have p1 := Real.pi_gt_d20
    have p2 := Real.pi_lt_d20
    rw [abs_mul]
    refine (mul_le_mul (b := 0.009718) ?_ ht (abs_nonneg _) (by norm_num)).trans (by norm_num)
    rw [abs_le]; constructor <;> norm_num at p1 p2 ⊢ <;> linarith
  have e : (celestialToIntermediate (a, b)) = celestialToIntermediateFromXys
    ((precessionNutation (a, b)).toMatrix 2 0) ((precessionNutation (a, b)).toMatrix 2 1)
    (cio (a, b) ((precessionNutation (a, b)).toMatrix 2 0) ((precessionNutation (a, b)).toMatrix 2 1)) := rfl
  unfold poleRow
  rw [e]
  clear e
  generalize (precessionNutation (a, b)).toMatrix 2 0 = x at *
  generalize (precessionNutation (a, b)).toMatrix 2 1 = y at *
  generalize precessionAngle (a + b - 2451545) = p at *
  generalize cio (a, b) x y = s at *
  have hx : |x| ≤ 0.009868 := by
    rw [abs_le] at *; norm_num at *; constructor <;> linarith
  have hx2 : x ^ 2 ≤ 0.009868 ^ 2 := sq_le_sq' (by linarith [(abs_le.mp hx).1]) (abs_le.mp hx).2
  have hy2 : y ^ 2 ≤ 2.55e-4 ^ 2 := sq_le_sq' (by linarith [(abs_le.mp h2).1]) (abs_le.mp h2).2
  have hr : x ^ 2 + y ^ 2 ≤ 0.0000975 := by norm_num at *; linarith
  have hk : 1 / (1 + Real.sqrt (1 - (x ^ 2 + y ^ 2))) ≤ 0.51 := by
    have : 0.99 ≤ Real.sqrt (1 - (x ^ 2 + y ^ 2)) := Real.le_sqrt_of_sq_le (by norm_num; linarith)
    rw [div_le_iff₀ (by positivity)]; norm_num at *; linarith
  refine ⟨x, y, 1 / (1 + Real.sqrt (1 - (x ^ 2 + y ^ 2))), ?_, rfl, rfl, by positivity, hk, h1, h2, hx, rfl⟩
  rw [C63_cio_matrix x y s (by linarith)]
  ext i
  fin_cases i <;> simp [R3, Matrix.mul_apply, Fin.sum_univ_three]

theorem MB.row {A : M3} {e : ℝ} (h : MB A e) (i : Fin 3) : len (A i) ≤ e := by
  rcases (len_nonneg (A i)).eq_or_lt with h0 | h0
  · rw [← h0]; exact h.nonneg
  have h1 := (abs_le_len (A *ᵥ A i) i).trans (h.vec (A i))
  have h2 : (A *ᵥ A i) i = len (A i) ^ 2 := by
    rw [len_sq]
    simp only [Matrix.mulVec, dotProduct, Fin.sum_univ_three]
    ring
  rw [h2, abs_of_nonneg (sq_nonneg _), pow_two] at h1
  exact le_of_mul_le_mul_right h1 h0

/-- The pole of date at two dates. -/
theorem poleRow_slow {a b a' b' : ℝ} (h : |a + b - 2451545| ≤ 36525) (h' : |a' + b' - 2451545| ≤ 36525) :
    len (poleRow a b - poleRow a' b') ≤ 4.1e-6 * |a + b - (a' + b')| + 3e-20 := by
  have hd : |(a + b - 2451545) / 36525 - (a' + b' - 2451545) / 36525| = |a + b - (a' + b')| / 36525 := by
    rw [show (a + b - 2451545) / 36525 - (a' + b' - 2451545) / 36525 = (a + b - (a' + b')) / 36525 by ring, abs_div,
      abs_of_pos (show (0 : ℝ) < 36525 by norm_num)]
  have hM := npb_slow h h' rfl
  rw [hd] at hM
  have m0 := hM.entry 2 0
  have m1 := hM.entry 2 1
  rw [Matrix.sub_apply] at m0 m1
  obtain ⟨x, y, k, e, hx, hy, -, -, -, b2, b3, hk⟩ := poleRow_eq h
  obtain ⟨x', y', k', e', hx', hy', -, -, -, b2', b3', hk'⟩ := poleRow_eq h'
  rw [← hx, ← hx'] at m0
  rw [← hy, ← hy'] at m1
  have P := pole_lip (b3.trans (by norm_num)) (b2.trans (by norm_num)) (b3'.trans (by norm_num)) (b2'.trans (by norm_num)) m0 m1
  simp only at P
  rw [← hk, ← hk'] at P
  have := P.row 2
  rw [e, e']
  refine (le_of_eq (congrArg len ?_)).trans (this.trans ?_)
  · ext i
    fin_cases i <;> simp
  · have := abs_nonneg (a + b - (a' + b'))
    generalize |a + b - (a' + b')| = z at this ⊢
    norm_num
    linarith

theorem poleRow_le {a b : ℝ} (h : |a + b - 2451545| ≤ 36525) : len (poleRow a b) ≤ 1.0001 := by
  obtain ⟨x, y, k, e, -, -, k0, k1, -, b2, b3, -⟩ := poleRow_eq h
  have hx2 : x ^ 2 ≤ 0.009868 ^ 2 := sq_le_sq' (by linarith [(abs_le.mp b3).1]) (abs_le.mp b3).2
  have hy2 : y ^ 2 ≤ 2.55e-4 ^ 2 := sq_le_sq' (by linarith [(abs_le.mp b2).1]) (abs_le.mp b2).2
  have hk : 0 ≤ k * (x ^ 2 + y ^ 2) := by positivity
  have hk2 : k * (x ^ 2 + y ^ 2) ≤ 0.51 * 0.0001 := mul_le_mul k1 (by norm_num at *; linarith) (by positivity) (by norm_num)
  rw [e]
  unfold len
  apply Real.sqrt_le_iff.mpr ⟨by norm_num, _⟩
  simp only [Matrix.cons_val]
  generalize k * (x ^ 2 + y ^ 2) = z at *
  nlinarith

/-! ## The yearly motion -/

theorem sin_lower {z t : ℝ} (z0 : 0 < z) (h1 : z ≤ t) (h2 : t ≤ Real.pi - z) : z - z ^ 3 / 6 ≤ Real.sin t := by
  have key : ∀ u : ℝ, z ≤ u → u ≤ Real.pi / 2 → z - z ^ 3 / 6 ≤ Real.sin u := by
    intro u a b
    have m : Real.sin z ≤ Real.sin u := by
      apply Real.sin_le_sin_of_le_of_le_pi_div_two _ b a
      linarith [Real.pi_gt_three]
    exact ((Real.sin_gt_sub_cube z0).le).trans m
  rcases le_total t (Real.pi / 2) with h | h
  · exact key t h1 h
  · rw [← Real.sin_pi_sub]
    exact key _ (by linarith) (by linarith)

/-- Component along which the mean Earth moves in declination. -/
noncomputable def declDrive (n : ℝ) : ℝ := Real.sin obliquity * meanEarth n 0 - precessionAngle n * meanEarth n 1

set_option maxHeartbeats 800000 in
theorem declDrive_near {n : ℝ} (hn : |n| ≤ 36526) {C : ℝ} (hC : C = Real.cos (meanLongitude n + 0.0244287 * (n / 36525))) :
    (C ≤ -0.02818 → declDrive n ≤ -0.0074) ∧ (0.0135 ≤ C → 0.0074 ≤ declDrive n) := by
  obtain ⟨so, -⟩ := sincos_obl obliquity_near
  obtain ⟨o1, o2⟩ := perihelion_bounds
  have ht : |n / 36525| ≤ 1.0001 := by
    rw [abs_div, abs_of_pos (show (0 : ℝ) < 36525 by norm_num), div_le_iff₀ (by norm_num)]; norm_num at *; linarith
  have hP : |precessionAngle n - 0.39777 * (0.0244287 * (n / 36525))| ≤ 3e-7 := by
    unfold precessionAngle
    have p1 := Real.pi_gt_d20
    have p2 := Real.pi_lt_d20
    rw [show 2004.3109 / 3600 * (Real.pi / 180) * (n / 36525) - 0.39777 * (0.0244287 * (n / 36525)) =
      (2004.3109 / 3600 * (Real.pi / 180) - 0.39777 * 0.0244287) * (n / 36525) by ring, abs_mul]
    refine (mul_le_mul (b := 2.5e-7) ?_ ht (abs_nonneg _) (by norm_num)).trans (by norm_num)
    rw [abs_le]; constructor <;> norm_num at p1 p2 ⊢ <;> linarith
  have hκ : |0.0244287 * (n / 36525)| ≤ 0.024432 := by
    rw [abs_mul, abs_of_pos (by norm_num)]; norm_num at *; linarith
  have e0 : meanEarth n 0 = Real.cos (meanLongitude n) * (1 + eccentricity * Real.cos (meanLongitude n - perihelion)) -
      2 * eccentricity * Real.cos perihelion := by
    show Real.cos (meanLongitude n) - eccentricity / 2 * (3 * Real.cos perihelion - Real.cos (2 * meanLongitude n - perihelion)) = _
    rw [show 2 * meanLongitude n - perihelion = meanLongitude n + (meanLongitude n - perihelion) by ring, Real.cos_add,
      Real.cos_sub, Real.sin_sub]
    have := Real.sin_sq_add_cos_sq (meanLongitude n)
    linear_combination (-eccentricity / 2 * Real.cos perihelion) * this
  have e1 : meanEarth n 1 = Real.sin (meanLongitude n) - eccentricity / 2 * (3 * Real.sin perihelion - Real.sin (2 * meanLongitude n - perihelion)) := rfl
  unfold declDrive
  rw [e0, e1]
  rw [Real.cos_add] at hC
  have hS := Real.sin_bound (hκ.trans (by norm_num))
  have hCo := Real.one_sub_sq_div_two_le_cos (x := 0.0244287 * (n / 36525))
  have hC1 := Real.cos_le_one (0.0244287 * (n / 36525))
  generalize 0.0244287 * (n / 36525) = κ at *
  have c1 := Real.abs_cos_le_one (meanLongitude n - perihelion)
  have c2 := Real.abs_sin_le_one (2 * meanLongitude n - perihelion)
  have c3 := Real.abs_cos_le_one (meanLongitude n)
  have c4 := Real.abs_sin_le_one (meanLongitude n)
  generalize Real.cos (meanLongitude n - perihelion) = u at *
  generalize Real.sin (2 * meanLongitude n - perihelion) = v at *
  generalize Real.cos (meanLongitude n) = A at *
  generalize Real.sin (meanLongitude n) = B at *
  generalize Real.cos perihelion = cp at *
  generalize Real.sin perihelion = sp at *
  generalize Real.sin obliquity = S at *
  generalize precessionAngle n = P at *
  generalize Real.cos κ = ck at *
  generalize Real.sin κ = sk at *
  have k2 : κ ^ 2 ≤ 0.0005970 := by
    have := sq_le_sq' (by linarith [(abs_le.mp hκ).1]) (abs_le.mp hκ).2
    norm_num at this ⊢; linarith
  have hsk : |sk - κ| ≤ 3e-6 := by
    have k3 : |κ ^ 3| ≤ 1.46e-5 := by
      rw [abs_pow]
      exact (pow_le_pow_left₀ (abs_nonneg _) hκ 3).trans (by norm_num)
    have k4 : |κ| ^ 5 ≤ 1e-8 := (pow_le_pow_left₀ (abs_nonneg _) hκ 5).trans (by norm_num)
    generalize κ ^ 3 = z at *
    generalize |κ| ^ 5 = z' at *
    rw [abs_le] at *
    constructor <;> norm_num at * <;> linarith
  -- the rotated direction
  have hη : |A - κ * B - C| ≤ 0.000303 := by
    rw [show A - κ * B - C = A * (1 - ck) + B * (sk - κ) by rw [hC]; ring]
    refine (abs_add_le _ _).trans ?_
    rw [abs_mul, abs_mul]
    have : |1 - ck| ≤ 0.0002985 := by rw [abs_le]; constructor <;> norm_num at * <;> linarith
    have q1 := mul_le_mul c3 this (abs_nonneg _) (by norm_num)
    have q2 := mul_le_mul c4 hsk (abs_nonneg _) (by norm_num)
    norm_num at *; linarith
  have hμ : |eccentricity * u| ≤ 0.01672 := by
    unfold eccentricity
    rw [abs_mul, abs_of_pos (by norm_num)]; norm_num at *; linarith
  have hμκ : |eccentricity * u * (κ * B)| ≤ 0.00041 := by
    rw [abs_mul, abs_mul κ B]
    have := mul_le_mul hκ c4 (abs_nonneg _) (by norm_num)
    have := mul_le_mul hμ this (by positivity) (by norm_num)
    norm_num at *; linarith
  have hd : 0.00747 ≤ -(2 * eccentricity * cp) ∧ -(2 * eccentricity * cp) ≤ 0.00749 := by
    unfold eccentricity; rw [abs_le] at o1; constructor <;> norm_num at * <;> linarith
  have hye : |eccentricity / 2 * (3 * sp - v)| ≤ 0.0328 := by
    unfold eccentricity
    rw [abs_mul, abs_of_pos (by norm_num)]
    have : |3 * sp - v| ≤ 3.925 := by rw [abs_le] at *; constructor <;> norm_num at * <;> linarith
    norm_num at *; linarith
  have hκy : |κ * (eccentricity / 2 * (3 * sp - v))| ≤ 0.000802 := by
    rw [abs_mul]
    exact (mul_le_mul hκ hye (abs_nonneg _) (by norm_num)).trans (by norm_num)
  have hB : |B - eccentricity / 2 * (3 * sp - v)| ≤ 1.04 := (abs_sub _ _).trans (by norm_num at *; linarith)
  have hPS : |(S * κ - P) * (B - eccentricity / 2 * (3 * sp - v))| ≤ 1e-6 := by
    rw [abs_mul]
    have : |S * κ - P| ≤ 5e-7 := by
      have : |(S - 0.39777) * κ| ≤ 7.5e-6 * 0.024432 := by
        rw [abs_mul]
        refine mul_le_mul ?_ hκ (abs_nonneg _) (by norm_num)
        rw [abs_le] at *; constructor <;> norm_num at * <;> linarith
      rw [show S * κ - P = (S - 0.39777) * κ - (P - 0.39777 * κ) by ring]
      refine (abs_sub _ _).trans ?_
      norm_num at *; linarith
    exact (mul_le_mul this hB (abs_nonneg _) (by norm_num)).trans (by norm_num)
  rw [show S * (A * (1 + eccentricity * u) - 2 * eccentricity * cp) - P * (B - eccentricity / 2 * (3 * sp - v)) =
    S * ((1 + eccentricity * u) * (C + (A - κ * B - C)) + eccentricity * u * (κ * B) + -(2 * eccentricity * cp) +
      κ * (eccentricity / 2 * (3 * sp - v))) + (S * κ - P) * (B - eccentricity / 2 * (3 * sp - v)) by ring]
  generalize (S * κ - P) * (B - eccentricity / 2 * (3 * sp - v)) = z1 at *
  generalize κ * (eccentricity / 2 * (3 * sp - v)) = z2 at *
  generalize -(2 * eccentricity * cp) = z3 at *
  generalize eccentricity * u * (κ * B) = z4 at *
  generalize eccentricity * u = μ at *
  generalize A - κ * B - C = η at *
  clear hC e0 e1
  rw [abs_le] at *
  constructor
  · intro h
    have g1 : (1 + μ) * (C + η) ≤ 0.98328 * (-0.027877) := by
      have : C + η ≤ -0.027877 := by norm_num at *; linarith [hη.2]
      nlinarith [hμ.1]
    have g2 : (1 + μ) * (C + η) + z4 + z3 + z2 ≤ -0.01870 := by norm_num at *; linarith [hμκ.2, hκy.2, hd.2]
    have g3 := mul_le_mul_of_nonneg_left g2 (show 0 ≤ S by norm_num at *; linarith [so.1])
    have s1 := so.1
    have p1 := hPS.2
    clear * - s1 p1 g3
    generalize (1 + μ) * (C + η) + z4 + z3 + z2 = Q at *
    generalize S * Q = Q' at *
    norm_num at s1 p1 g3 ⊢; linarith
  · intro h
    have g1 : 0.98328 * 0.013197 ≤ (1 + μ) * (C + η) := by
      have : 0.013197 ≤ C + η := by norm_num at *; linarith [hη.1]
      nlinarith [hμ.1]
    have g2 : 0.0187 ≤ (1 + μ) * (C + η) + z4 + z3 + z2 := by norm_num at *; linarith [hμκ.1, hκy.1, hd.1]
    have g3 := mul_le_mul_of_nonneg_left g2 (show 0 ≤ S by norm_num at *; linarith [so.1])
    have s1 := so.1
    have p1 := hPS.1
    clear * - s1 p1 g3
    generalize (1 + μ) * (C + η) + z4 + z3 + z2 = Q at *
    generalize S * Q = Q' at *
    norm_num at s1 p1 g3 ⊢; linarith

end Verif
