import Verif.Lemmas.Declination
import Verif.Lemmas.SunClimb

/-!
# Monotonicity of the declination of the Sun between the solstices
-/

namespace Verif
open Arith Matrix Spec

/-- Vector product. -/
def crossV (u v : Fin 3 → ℝ) : Fin 3 → ℝ := ![u 1 * v 2 - u 2 * v 1, u 2 * v 0 - u 0 * v 2, u 0 * v 1 - u 1 * v 0]

theorem crossV_len (u v : Fin 3 → ℝ) : len (crossV u v) ≤ len u * len v := by
  have h1 := len_sq u
  have h2 := len_sq v
  refine abs_le_of_sq_le_sq (a := len (crossV u v)) ?_ (mul_nonneg (len_nonneg _) (len_nonneg _)) |> le_trans (le_abs_self _)
  rw [mul_pow, h1, h2, len_sq]
  simp only [crossV, Matrix.cons_val]
  nlinarith [sq_nonneg (u 0 * v 0 + u 1 * v 1 + u 2 * v 2)]

theorem helio_len {s : ℝ} (h : |s - 2451545| ≤ 36525) :
    0.982 ≤ len (earthAt s).heliocentric.p.toVec ∧ len (earthAt s).heliocentric.p.toVec ≤ 1.019 := by
  have := C36_distance 0 s (by rw [zero_add]; exact h) _ (fromTDB_real _)
  rw [norm_real, zero_add] at this
  exact this

/-- The moment of the direction of the Earth about the pole of date. -/
theorem pole_moment {s a b : ℝ} (h : |s - 2451545| ≤ 36525) (h' : |a + b - 2451545| ≤ 36525) (hs : |a + b - s| ≤ 200) :
    |(-0.397776982902 * crossV (earthAt s).heliocentric.p.toVec (poleRow a b) 1 +
      0.917482137087 * crossV (earthAt s).heliocentric.p.toVec (poleRow a b) 2) - declDrive (s - 2451545)| ≤ 0.001 := by
  have hE := earth_near (n := s - 2451545) h (by norm_num)
  obtain ⟨so, co⟩ := sincos_obl obliquity_near
  have hp0 := (abs_le_len (earthAt s).heliocentric.p.toVec 0).trans (helio_len h).2
  obtain ⟨x, y, k, e, -, -, k0, k1, hx, b2, b3, -⟩ := poleRow_eq h'
  have hm : |meanEarth (s - 2451545) 1| ≤ 1.04 := by
    have c2 := Real.abs_sin_le_one (2 * meanLongitude (s - 2451545) - perihelion)
    have c3 := Real.abs_sin_le_one perihelion
    have c4 := Real.abs_sin_le_one (meanLongitude (s - 2451545))
    show |Real.sin (meanLongitude (s - 2451545)) - eccentricity / 2 * (3 * Real.sin perihelion - Real.sin (2 * meanLongitude (s - 2451545) - perihelion))| ≤ _
    unfold eccentricity
    rw [abs_le] at *; constructor <;> norm_num at * <;> linarith
  have hP : |precessionAngle (a + b - 2451545) - precessionAngle (s - 2451545)| ≤ 5.4e-5 := by
    have p1 := Real.pi_gt_d20
    have p2 := Real.pi_lt_d20
    have : precessionAngle (a + b - 2451545) - precessionAngle (s - 2451545) =
        2004.3109 / 3600 / 180 / 36525 * Real.pi * (a + b - s) := by unfold precessionAngle; ring
    rw [this, abs_mul]
    refine (mul_le_mul (b := 2.67e-7) ?_ hs (abs_nonneg _) (by norm_num)).trans (by norm_num)
    rw [abs_of_pos (by positivity)]; norm_num at p1 p2 ⊢; linarith
  rw [e]
  unfold declDrive
  have q0 := (abs_le_len _ 0).trans hE
  have q1 := (abs_le_len _ 1).trans hE
  have q2 := (abs_le_len _ 2).trans hE
  have r0 : (R1 (-obliquity) *ᵥ meanEarth (s - 2451545)) 0 = meanEarth (s - 2451545) 0 := by
    simp [R1, Matrix.mulVec, dotProduct, Fin.sum_univ_three]
  have r1 : (R1 (-obliquity) *ᵥ meanEarth (s - 2451545)) 1 = Real.cos obliquity * meanEarth (s - 2451545) 1 := by
    simp [R1, Matrix.mulVec, dotProduct, Fin.sum_univ_three, meanEarth]
  have r2 : (R1 (-obliquity) *ᵥ meanEarth (s - 2451545)) 2 = Real.sin obliquity * meanEarth (s - 2451545) 1 := by
    simp [R1, Matrix.mulVec, dotProduct, Fin.sum_univ_three, meanEarth]
  rw [Pi.sub_apply, r0] at q0
  rw [Pi.sub_apply, r1] at q1
  rw [Pi.sub_apply, r2] at q2
  simp only [crossV, Matrix.cons_val]
  generalize (earthAt s).heliocentric.p.toVec 0 = p0 at *
  generalize (earthAt s).heliocentric.p.toVec 1 = p1 at *
  generalize (earthAt s).heliocentric.p.toVec 2 = p2 at *
  have hx2 : x ^ 2 ≤ 0.009868 ^ 2 := sq_le_sq' (by linarith [(abs_le.mp b3).1]) (abs_le.mp b3).2
  have hy2 : y ^ 2 ≤ 2.55e-4 ^ 2 := sq_le_sq' (by linarith [(abs_le.mp b2).1]) (abs_le.mp b2).2
  have hk : 0 ≤ k * (x ^ 2 + y ^ 2) := by positivity
  have hk2 : k * (x ^ 2 + y ^ 2) ≤ 0.51 * 0.0000975 := mul_le_mul k1 (by norm_num at *; linarith) (by positivity) (by norm_num)
  generalize k * (x ^ 2 + y ^ 2) = z at *
  generalize precessionAngle (a + b - 2451545) = P' at *
  generalize precessionAngle (s - 2451545) = P at *
  generalize meanEarth (s - 2451545) 0 = X at *
  generalize meanEarth (s - 2451545) 1 = Y at *
  generalize Real.sin obliquity = S at *
  generalize Real.cos obliquity = C at *
  clear r0 r1 r2 hE e h h' hs hx2 hy2 k0 k1
  rw [show -0.397776982902 * (p2 * x - p0 * (1 - z)) + 0.917482137087 * (p0 * y - p1 * x) - (S * X - P * Y) =
    p0 * (0.397776982902 * (1 - z) + 0.917482137087 * y - S) + S * (p0 - X) -
      x * (0.397776982902 * (p2 - S * Y) + 0.917482137087 * (p1 - C * Y) + Y * (0.397776982902 * S + 0.917482137087 * C - 1)) -
      Y * ((x - P') + (P' - P)) by ring]
  have t1 : |p0 * (0.397776982902 * (1 - z) + 0.917482137087 * y - S)| ≤ 1.019 * 0.0002545 := by
    rw [abs_mul]
    refine mul_le_mul hp0 ?_ (abs_nonneg _) (by norm_num)
    rw [abs_le] at *; constructor <;> norm_num at * <;> linarith
  have t2 : |S * (p0 - X)| ≤ 0.39778 * 1.146e-3 := by
    rw [abs_mul]
    refine mul_le_mul ?_ q0 (abs_nonneg _) (by norm_num)
    rw [abs_le] at *; constructor <;> norm_num at * <;> linarith
  have t3 : |Y * (0.397776982902 * S + 0.917482137087 * C - 1)| ≤ 1.04 * 1e-6 := by
    rw [abs_mul]
    refine mul_le_mul hm ?_ (abs_nonneg _) (by norm_num)
    rw [abs_le] at *; constructor <;> norm_num at * <;> linarith
  have t4 : |x * (0.397776982902 * (p2 - S * Y) + 0.917482137087 * (p1 - C * Y) + Y * (0.397776982902 * S + 0.917482137087 * C - 1))| ≤
      0.009868 * 0.00152 := by
    rw [abs_mul]
    refine mul_le_mul b3 ?_ (abs_nonneg _) (by norm_num)
    generalize Y * (0.397776982902 * S + 0.917482137087 * C - 1) = w at *
    generalize p2 - S * Y = w1 at *
    generalize p1 - C * Y = w2 at *
    clear t1 t2
    rw [abs_le] at *; constructor <;> norm_num at * <;> linarith
  have t5 : |Y * ((x - P') + (P' - P))| ≤ 1.04 * 2.03e-4 := by
    rw [abs_mul]
    refine mul_le_mul hm ((abs_add_le _ _).trans ?_) (abs_nonneg _) (by norm_num)
    norm_num at *; linarith
  refine (abs_sub _ _).trans ((add_le_add_left ((abs_sub _ _).trans (add_le_add_left (abs_add_le _ _) _)) _).trans ?_)
  refine (add_le_add (add_le_add (add_le_add t1 t2) t4) t5).trans (by norm_num)

/-- Rate of change of the projection of the direction of the Earth. -/
theorem proj_deriv (c : Fin 3 → ℝ) {s : ℝ} (h : |s - 2451545| ≤ 36525) :
    HasDerivAt (fun u => (c 0 * (earthAt u).heliocentric.p.x + c 1 * (earthAt u).heliocentric.p.y + c 2 * (earthAt u).heliocentric.p.z) /
        len (earthAt u).heliocentric.p.toVec)
      ((crossV (earthAt s).heliocentric.p.toVec (earthAt s).heliocentric.v.toVec 0 * crossV (earthAt s).heliocentric.p.toVec c 0 +
        crossV (earthAt s).heliocentric.p.toVec (earthAt s).heliocentric.v.toVec 1 * crossV (earthAt s).heliocentric.p.toVec c 1 +
        crossV (earthAt s).heliocentric.p.toVec (earthAt s).heliocentric.v.toVec 2 * crossV (earthAt s).heliocentric.p.toVec c 2) /
        len (earthAt s).heliocentric.p.toVec ^ 3) s := by
  have hder : VecDeriv (fun u => (earthAt u).heliocentric.p) (earthAt s).heliocentric.v s :=
    VecDeriv.toICRF ⟨deriv_comp (hasDerivAt_helioEcl _ 0), deriv_comp (hasDerivAt_helioEcl _ 1),
      deriv_comp (hasDerivAt_helioEcl _ 2)⟩
  obtain ⟨dx, dy, dz⟩ := hder
  have hl := (helio_len h).1
  have hl0 : 0 < len (earthAt s).heliocentric.p.toVec := by linarith
  have hs := len_sq (earthAt s).heliocentric.p.toVec
  have h2 : (earthAt s).heliocentric.p.x ^ 2 + (earthAt s).heliocentric.p.y ^ 2 + (earthAt s).heliocentric.p.z ^ 2 ≠ 0 := by
    have : 0 < len (earthAt s).heliocentric.p.toVec ^ 2 := by positivity
    rw [hs] at this
    exact this.ne'
  have dl := (((dx.pow 2).add (dy.pow 2)).add (dz.pow 2)).sqrt h2
  have d := ((((dx.const_mul (c 0)).add (dy.const_mul (c 1))).add (dz.const_mul (c 2))).div dl hl0.ne')
  refine d.congr_deriv ?_
  have e1 : Real.sqrt ((earthAt s).heliocentric.p.x ^ 2 + (earthAt s).heliocentric.p.y ^ 2 + (earthAt s).heliocentric.p.z ^ 2) =
    len (earthAt s).heliocentric.p.toVec := rfl
  simp only [Pi.add_apply, Pi.pow_apply, Nat.cast_ofNat, Nat.add_one_sub_one, pow_one, e1]
  simp only [crossV, Matrix.cons_val]
  have f0 : (earthAt s).heliocentric.p.toVec 0 = (earthAt s).heliocentric.p.x := rfl
  have f1 : (earthAt s).heliocentric.p.toVec 1 = (earthAt s).heliocentric.p.y := rfl
  have f2 : (earthAt s).heliocentric.p.toVec 2 = (earthAt s).heliocentric.p.z := rfl
  have g0 : (earthAt s).heliocentric.v.toVec 0 = (earthAt s).heliocentric.v.x := rfl
  have g1 : (earthAt s).heliocentric.v.toVec 1 = (earthAt s).heliocentric.v.y := rfl
  have g2 : (earthAt s).heliocentric.v.toVec 2 = (earthAt s).heliocentric.v.z := rfl
  rw [f0, f1, f2] at hs
  rw [f0, f1, f2, g0, g1, g2]
  generalize (earthAt s).heliocentric.p.x = x at *
  generalize (earthAt s).heliocentric.p.y = y at *
  generalize (earthAt s).heliocentric.p.z = z at *
  generalize len (earthAt s).heliocentric.p.toVec = r at *
  field_simp
  rw [hs]
  ring

/-- Projection of the direction of the Earth. -/
noncomputable def proj (c : Fin 3 → ℝ) (u : ℝ) : ℝ :=
  (c 0 * (earthAt u).heliocentric.p.x + c 1 * (earthAt u).heliocentric.p.y + c 2 * (earthAt u).heliocentric.p.z) /
    len (earthAt u).heliocentric.p.toVec

theorem proj_rate {s a b : ℝ} (h : |s - 2451545| ≤ 36525) (h' : |a + b - 2451545| ≤ 36525) (hs : |a + b - s| ≤ 200) :
    ∃ d, HasDerivAt (proj (poleRow a b)) d s ∧ (declDrive (s - 2451545) ≤ -0.0074 → d ≤ -3.1e-5) ∧
      (0.0074 ≤ declDrive (s - 2451545) → 3.1e-5 ≤ d) := by
  refine ⟨_, proj_deriv (poleRow a b) h, ?_⟩
  have hA := C89_areal 0 s (by rw [zero_add]; exact h) _ (fromTDB_real _) _ _ rfl rfl
  rw [zero_add] at hA
  have hM := pole_moment h h' hs
  have hB := (crossV_len (earthAt s).heliocentric.p.toVec (poleRow a b)).trans
    (mul_le_mul (helio_len h).2 (poleRow_le h') (len_nonneg _) (by norm_num))
  obtain ⟨l1, l2⟩ := helio_len h
  set A := crossV (earthAt s).heliocentric.p.toVec (earthAt s).heliocentric.v.toVec with hAd
  set B := crossV (earthAt s).heliocentric.p.toVec (poleRow a b)
  have ha : len ![A 0, A 1 + 0.0172021 * 0.397776982902, A 2 - 0.0172021 * 0.917482137087] ≤ 0.000075 := by
    apply Real.sqrt_le_iff.mpr ⟨by norm_num, _⟩
    exact hA
  have hd := (dot_le ![A 0, A 1 + 0.0172021 * 0.397776982902, A 2 - 0.0172021 * 0.917482137087] B).trans
    (mul_le_mul ha hB (len_nonneg _) (by norm_num))
  simp only [Matrix.cons_val] at hd
  clear_value A B
  clear hA ha hAd hB
  generalize len (earthAt s).heliocentric.p.toVec = r at *
  have r0 : 0 < r ^ 3 := by have : 0 < r := by linarith
                            positivity
  have r3 : r ^ 3 ≤ 1.0581 := (pow_le_pow_left₀ (by linarith) l2 3).trans (by norm_num)
  generalize r ^ 3 = R at *
  generalize declDrive (s - 2451545) = G at *
  have e : A 0 * B 0 + A 1 * B 1 + A 2 * B 2 = 0.0172021 * (-0.397776982902 * B 1 + 0.917482137087 * B 2) +
    (A 0 * B 0 + (A 1 + 0.0172021 * 0.397776982902) * B 1 + (A 2 - 0.0172021 * 0.917482137087) * B 2) := by ring
  rw [e]
  generalize A 0 * B 0 + (A 1 + 0.0172021 * 0.397776982902) * B 1 + (A 2 - 0.0172021 * 0.917482137087) * B 2 = w at *
  generalize -0.397776982902 * B 1 + 0.917482137087 * B 2 = m at *
  rw [abs_le] at hd hM
  constructor
  · intro hG
    rw [div_le_iff₀ r0]
    norm_num at *
    linarith [hd.2, hM.2]
  · intro hG
    rw [le_div_iff₀ r0]
    norm_num at *
    linarith [hd.1, hM.1]

/-- The third row of the terrestrial matrix, applied to a vector, is the projection on the pole of date. -/
theorem sun_z {a b u v : ℝ} (h : |a + b - 2451545| ≤ 36525) {S : Fin 3 → ℝ}
    (hS : S = (celestialToTerrestrial (a, b) (u, v) (0.0349282 * AS2R) (0.4833163 * AS2R)).toMatrix *ᵥ
      (-(earthAt (a + b)).heliocentric.p.toVec)) :
    len S = len (earthAt (a + b)).heliocentric.p.toVec ∧ |S 2 / len S + proj (poleRow a b) (a + b)| ≤ 2.6e-6 := by
  have hl : len S = len (earthAt (a + b)).heliocentric.p.toVec := by
    rw [hS, len_mulVec (mul_eq_one_comm.mp ((isRotation_iff _).mp (C38_celestial_to_terrestrial _ _ _ _)).1)]
    unfold len; simp
  refine ⟨hl, ?_⟩
  obtain ⟨l1, l2⟩ := helio_len h
  rw [C43_product, Matrix.mul_assoc, ← Matrix.mulVec_mulVec] at hS
  set T := (!![Real.cos (rotationAngle (u, v)), Real.sin (rotationAngle (u, v)), 0;
           -Real.sin (rotationAngle (u, v)), Real.cos (rotationAngle (u, v)), 0; 0, 0, 1] *
        (celestialToIntermediate (a, b)).toMatrix) *ᵥ (-(earthAt (a + b)).heliocentric.p.toVec) with hT
  have e : S - T = ((polarMotionMatrix (0.0349282 * AS2R) (0.4833163 * AS2R) 0 : Mat3 ℝ).toMatrix - 1) *ᵥ T := by
    rw [Matrix.sub_mulVec, Matrix.one_mulVec, hS]
  have hTl : len T ≤ len (earthAt (a + b)).heliocentric.p.toVec := by
    have hR : MB !![Real.cos (rotationAngle (u, v)), Real.sin (rotationAngle (u, v)), 0;
           -Real.sin (rotationAngle (u, v)), Real.cos (rotationAngle (u, v)), 0; 0, 0, 1] 1 := MB.R3 _
    have := (hR.mul (MB.of_rotation (C38_celestial_to_intermediate (a, b) 0 0 0).2)).vec (-(earthAt (a + b)).heliocentric.p.toVec)
    rw [mul_one, one_mul] at this
    refine this.trans (le_of_eq ?_)
    unfold len; simp
  have hd := (abs_le_len (S - T) 2).trans ((e ▸ wobble.vec T).trans (mul_le_mul_of_nonneg_left hTl (by norm_num)))
  have hz : T 2 = -(poleRow a b 0 * (earthAt (a + b)).heliocentric.p.x + poleRow a b 1 * (earthAt (a + b)).heliocentric.p.y +
      poleRow a b 2 * (earthAt (a + b)).heliocentric.p.z) := by
    rw [hT]
    simp only [poleRow, Matrix.mulVec, dotProduct, Fin.sum_univ_three, Matrix.mul_apply, Pi.neg_apply, Vec3.toVec]
    simp
    ring
  rw [Pi.sub_apply, hz] at hd
  rw [hl]
  unfold proj
  generalize len (earthAt (a + b)).heliocentric.p.toVec = r at *
  have r0 : 0 < r := by linarith
  rw [← add_div, abs_div, abs_of_pos r0, div_le_iff₀ r0]
  rw [sub_neg_eq_add] at hd
  exact hd

/-- The projections on two directions. -/
theorem proj_sub (c c' : Fin 3 → ℝ) {s : ℝ} (h : |s - 2451545| ≤ 36525) : |proj c s - proj c' s| ≤ len (c - c') := by
  obtain ⟨l1, -⟩ := helio_len h
  have l0 : 0 < len (earthAt s).heliocentric.p.toVec := by linarith
  have := dot_le (c - c') (earthAt s).heliocentric.p.toVec
  unfold proj
  rw [← sub_div, abs_div, abs_of_pos l0, div_le_iff₀ l0]
  refine le_trans (le_of_eq (congrArg (fun x : ℝ => |x|) ?_)) this
  simp only [Pi.sub_apply, Vec3.toVec, Matrix.cons_val]
  ring

/-- The declination at two dates, while the drive keeps its sign. -/
theorem sun_decl_step {a b u v a' b' u' v' : ℝ} (h : |a + b - 2451545| ≤ 36525) (h' : |a' + b' - 2451545| ≤ 36525)
    (hlt : a + b < a' + b') (h200 : a' + b' - (a + b) ≤ 200) {S S' : Fin 3 → ℝ}
    (hS : S = (celestialToTerrestrial (a, b) (u, v) (0.0349282 * AS2R) (0.4833163 * AS2R)).toMatrix *ᵥ
      (-(earthAt (a + b)).heliocentric.p.toVec))
    (hS' : S' = (celestialToTerrestrial (a', b') (u', v') (0.0349282 * AS2R) (0.4833163 * AS2R)).toMatrix *ᵥ
      (-(earthAt (a' + b')).heliocentric.p.toVec)) :
    ((∀ s, a + b < s → s < a' + b' → declDrive (s - 2451545) ≤ -0.0074) →
      S 2 / len S + 2.69e-5 * (a' + b' - (a + b)) - 5.2001e-6 ≤ S' 2 / len S') ∧
    ((∀ s, a + b < s → s < a' + b' → 0.0074 ≤ declDrive (s - 2451545)) →
      S' 2 / len S' + 2.69e-5 * (a' + b' - (a + b)) - 5.2001e-6 ≤ S 2 / len S) := by
  obtain ⟨-, z1⟩ := sun_z h hS
  obtain ⟨-, z2⟩ := sun_z h' hS'
  have hc := (proj_sub (poleRow a b) (poleRow a' b') h').trans (poleRow_slow h h')
  rw [abs_sub_comm (a + b), abs_of_pos (show 0 < a' + b' - (a + b) by linarith)] at hc
  have rng : ∀ x ∈ Set.Icc (a + b) (a' + b'), |x - 2451545| ≤ 36525 ∧ |a + b - x| ≤ 200 := by
    intro x hx
    rw [abs_le] at *
    exact ⟨⟨by linarith [hx.1, h.1], by linarith [hx.2, h'.2]⟩, abs_le.mpr ⟨by linarith [hx.2], by linarith [hx.1]⟩⟩
  choose! d hd using fun x hx => proj_rate (rng x hx).1 h (rng x hx).2
  obtain ⟨m, hm, e⟩ := exists_hasDerivAt_eq_slope (proj (poleRow a b)) d hlt
    (fun x hx => (hd x hx).1.continuousAt.continuousWithinAt) (fun x hx => (hd x ⟨hx.1.le, hx.2.le⟩).1)
  obtain ⟨-, d1, d2⟩ := hd m ⟨hm.1.le, hm.2.le⟩
  rw [eq_div_iff (by linarith)] at e
  generalize S 2 / len S = x at *
  generalize S' 2 / len S' = x' at *
  have hD : 0 < a' + b' - (a + b) := by linarith
  constructor
  · intro hG
    have := mul_le_mul_of_nonneg_right (d1 (hG m hm.1 hm.2)) hD.le
    rw [e] at this
    generalize proj (poleRow a b) (a' + b') = q at *
    generalize proj (poleRow a' b') (a' + b') = q' at *
    generalize proj (poleRow a b) (a + b) = q'' at *
    generalize a' + b' - (a + b) = D at *
    rw [abs_le] at z1 z2 hc
    clear * - this z1 z2 hc hD
    norm_num at *
    linarith [z1.2, z2.1, hc.1, hc.2]
  · intro hG
    have := mul_le_mul_of_nonneg_right (d2 (hG m hm.1 hm.2)) hD.le
    rw [e] at this
    generalize proj (poleRow a b) (a' + b') = q at *
    generalize proj (poleRow a' b') (a' + b') = q' at *
    generalize proj (poleRow a b) (a + b) = q'' at *
    generalize a' + b' - (a + b) = D at *
    rw [abs_le] at z1 z2 hc
    clear * - this z1 z2 hc hD
    norm_num at *
    linarith [z1.1, z2.2, hc.1, hc.2]

/-! ## The seasons -/

/-- From 25 December to 18 June of the year `k`. -/
def Spec.Rising (k y m d : ℤ) : Prop := (y = k - 1 ∧ m = 12 ∧ 25 ≤ d) ∨ (y = k ∧ (m ≤ 5 ∨ m = 6 ∧ d ≤ 18))

/-- From 24 June to 18 December of the year `k`. -/
def Spec.Falling (k y m d : ℤ) : Prop := y = k ∧ ((m = 6 ∧ 24 ≤ d) ∨ (7 ≤ m ∧ m ≤ 11) ∨ (m = 12 ∧ d ≤ 18))

/-- The phase of the year. -/
noncomputable def phase (k : ℤ) (n : ℝ) : ℝ := meanLongitude n - Real.pi + 0.0244287 * (n / 36525) - ((k - 2000 : ℤ) : ℝ) * (2 * Real.pi)

theorem phase_mono (k : ℤ) {n n' : ℝ} (h : n ≤ n') : phase k n ≤ phase k n' ∧ phase k n' - phase k n ≤ 0.01721 * (n' - n) := by
  have p1 := Real.pi_gt_d6
  have p2 := Real.pi_lt_d6
  have e : phase k n' - phase k n = (35999.37244981 / 36525 / 180 * Real.pi + 0.0244287 / 36525) * (n' - n) := by
    unfold phase meanLongitude; ring
  have h0 : 0 ≤ n' - n := by linarith
  constructor
  · rw [← sub_nonneg, e]; positivity
  · rw [e]
    refine mul_le_mul_of_nonneg_right ?_ h0
    norm_num at *; linarith

theorem phase_drive (k : ℤ) {n : ℝ} (hn : |n| ≤ 36526) :
    (-(Real.pi / 2 - 0.02819) ≤ phase k n → phase k n ≤ Real.pi / 2 - 0.02819 → declDrive n ≤ -0.0074) ∧
      (Real.pi / 2 + 0.0136 ≤ phase k n → phase k n ≤ 3 * Real.pi / 2 - 0.0136 → 0.0074 ≤ declDrive n) := by
  have hc : Real.cos (meanLongitude n + 0.0244287 * (n / 36525)) = -Real.cos (phase k n) := by
    rw [← Real.cos_add_pi, ← Real.cos_add_int_mul_two_pi (phase k n + Real.pi) (k - 2000)]
    unfold phase; congr 1; ring
  obtain ⟨h1, h2⟩ := declDrive_near hn rfl
  rw [hc] at h1 h2
  constructor
  · intro a b
    apply h1
    have := sin_lower (z := 0.02819) (t := phase k n + Real.pi / 2) (by norm_num) (by linarith) (by linarith)
    rw [Real.sin_add_pi_div_two] at this
    norm_num at *; linarith
  · intro a b
    apply h2
    have := sin_lower (z := 0.0136) (t := phase k n - Real.pi / 2) (by norm_num) (by linarith) (by linarith)
    rw [Real.sin_sub_pi_div_two] at this
    norm_num at *; linarith

theorem day_count_near {a D : ℤ} (h1 : 1900 ≤ a) (h2 : a ≤ 2098) {N : ℤ}
    (hN : N = 365 * a + a / 4 - a / 100 + a / 400 + D - 678912) {f : ℝ} (f0 : -0.09 ≤ f) (f1 : f ≤ 1.09) :
    ∃ t : ℝ, (N : ℝ) - 51544.5 + f = 365.25 * ((a - 2000 : ℤ) : ℝ) + t ∧ D + 27.66 ≤ t ∧ t ≤ D + 29.59 := by
  refine ⟨(N : ℝ) - 51544.5 + f - 365.25 * ((a - 2000 : ℤ) : ℝ), by ring, ?_, ?_⟩
  · have : 1461 * (a - 2000) + 4 * (51573 + D) - 3 ≤ 4 * N := by omega
    have : (1461 * (a - 2000) + 4 * (51573 + D) - 3 : ℝ) ≤ 4 * N := by exact_mod_cast this
    push_cast
    norm_num at f0 ⊢
    linarith
  · have : 4 * N ≤ 1461 * (a - 2000) + 4 * (51573 + D) := by omega
    have : (4 * N : ℝ) ≤ 1461 * (a - 2000) + 4 * (51573 + D) := by exact_mod_cast this
    push_cast
    norm_num at f1 ⊢
    linarith

theorem rising_phase {k y m d : ℤ} (h1 : 1901 ≤ y) (h2 : y ≤ 2098) (hd : IsDate (y, m, d)) (hl : Rising k y m d) {f : ℝ}
    (f0 : -0.09 ≤ f) (f1 : f ≤ 1.09) : |phase k ((mjdN y m d : ℝ) - 51544.5 + f)| ≤ Real.pi / 2 - 0.0283 := by
  obtain ⟨m1, m2, d1, d2⟩ := hd
  simp only at m1 m2 d1 d2
  have hml : monthLen y m ≤ 31 := by unfold monthLen; split_ifs <;> omega
  obtain ⟨a, D, hN, a1, a2, hD⟩ : ∃ a D : ℤ, mjdN y m d = 365 * a + a / 4 - a / 100 + a / 400 + D - 678912 ∧ 1900 ≤ a ∧ a ≤ 2098 ∧
      ((a = k - 1 ∧ (a = 1900 → 337 ≤ D) ∧ 330 ≤ D ∧ D ≤ 397) ∨ (a = k ∧ 31 ≤ D ∧ D ≤ 140)) := by
    unfold Spec.Rising at hl
    rcases mjdN_cases y m d with ⟨h, e⟩ | ⟨h, e⟩
    · refine ⟨y - 1, 367 * (m + 10) / 12 + d, by rw [e]; ring, by omega, by omega, Or.inl ?_⟩
      rcases monthLen_cases y m m1 m2 with h' | h' | h' | h' <;> omega
    · refine ⟨y, 367 * (m - 2) / 12 + d, by rw [e]; ring, by omega, by omega, ?_⟩
      have : monthLen y m = 30 ∨ monthLen y m = 31 ∨ m = 2 := by
        rcases monthLen_cases y m m1 m2 with h' | h' | h' | h' <;> omega
      rcases hl with ⟨hy, rfl, hd⟩ | ⟨hy, h' | ⟨rfl, h'⟩⟩
      · left; omega
      · right
        refine ⟨hy, by omega, ?_⟩
        omega
      · right; omega
  obtain ⟨t, ht, t1, t2⟩ := day_count_near a1 a2 hN f0 f1
  generalize (mjdN y m d : ℝ) - 51544.5 + f = n at *
  have y1 : (-100 : ℝ) ≤ ((a - 2000 : ℤ) : ℝ) := by exact_mod_cast (by omega : -100 ≤ a - 2000)
  have y2 : ((a - 2000 : ℤ) : ℝ) ≤ 98 := by exact_mod_cast (by omega : a - 2000 ≤ 98)
  have D1 : (31 : ℝ) ≤ D := by exact_mod_cast (by omega : 31 ≤ D)
  have D2 : (D : ℝ) ≤ 397 := by exact_mod_cast (by omega : D ≤ 397)
  have t1' : 58 ≤ t := by norm_num at *; linarith
  have t2' : t ≤ 427 := by norm_num at *; linarith
  have hn : |n| ≤ 36526 := by
    rw [abs_le]; constructor <;> (norm_num at *; linarith)
  have hp := phase_near (by rw [abs_le]; constructor <;> linarith) (by rw [abs_le]; constructor <;> linarith) ht hn
  rw [abs_le] at hp
  have pi3 := Real.pi_gt_d6
  have pi4 := Real.pi_lt_d6
  unfold phase
  rcases hD with ⟨rfl, -, E1, E2⟩ | ⟨rfl, E1, E2⟩
  · have E1' : (330 : ℝ) ≤ D := by exact_mod_cast E1
    have ek : ((k - 2000 : ℤ) : ℝ) * (2 * Real.pi) = ((k - 1 - 2000 : ℤ) : ℝ) * (2 * Real.pi) + 2 * Real.pi := by push_cast; ring
    rw [ek, ← sub_sub]
    generalize meanLongitude n - Real.pi + 0.0244287 * (n / 36525) - ((k - 1 - 2000 : ℤ) : ℝ) * (2 * Real.pi) = w at *
    rw [abs_le]; constructor <;> norm_num at * <;> linarith [hp.1, hp.2]
  · have E2' : (D : ℝ) ≤ 140 := by exact_mod_cast E2
    generalize meanLongitude n - Real.pi + 0.0244287 * (n / 36525) - ((a - 2000 : ℤ) : ℝ) * (2 * Real.pi) = w at *
    rw [abs_le]; constructor <;> norm_num at * <;> linarith [hp.1, hp.2]

theorem falling_phase {k y m d : ℤ} (h1 : 1901 ≤ y) (h2 : y ≤ 2098) (hd : IsDate (y, m, d)) (hl : Falling k y m d) {f : ℝ}
    (f0 : -0.09 ≤ f) (f1 : f ≤ 1.09) :
    Real.pi / 2 + 0.015 ≤ phase k ((mjdN y m d : ℝ) - 51544.5 + f) ∧
      phase k ((mjdN y m d : ℝ) - 51544.5 + f) ≤ 3 * Real.pi / 2 - 0.015 := by
  obtain ⟨m1, m2, d1, d2⟩ := hd
  simp only at m1 m2 d1 d2
  have hml : monthLen y m ≤ 31 := by unfold monthLen; split_ifs <;> omega
  obtain ⟨rfl, hl⟩ := hl
  obtain ⟨D, hN, D1, D2⟩ : ∃ D : ℤ, mjdN y m d = 365 * y + y / 4 - y / 100 + y / 400 + D - 678912 ∧ 146 ≤ D ∧ D ≤ 323 := by
    rcases mjdN_cases y m d with ⟨h, -⟩ | ⟨-, e⟩
    · omega
    · refine ⟨367 * (m - 2) / 12 + d, by rw [e]; ring, ?_, ?_⟩ <;>
        rcases hl with ⟨rfl, h⟩ | ⟨h, h'⟩ | ⟨rfl, h⟩ <;> omega
  obtain ⟨t, ht, t1, t2⟩ := day_count_near (by omega) h2 hN f0 f1
  generalize (mjdN y m d : ℝ) - 51544.5 + f = n at *
  have D1' : (146 : ℝ) ≤ D := by exact_mod_cast D1
  have D2' : (D : ℝ) ≤ 323 := by exact_mod_cast D2
  have y1 : (-99 : ℝ) ≤ ((y - 2000 : ℤ) : ℝ) := by exact_mod_cast (by omega : -99 ≤ y - 2000)
  have y2 : ((y - 2000 : ℤ) : ℝ) ≤ 98 := by exact_mod_cast (by omega : y - 2000 ≤ 98)
  have hn : |n| ≤ 36526 := by rw [abs_le]; constructor <;> (norm_num at *; linarith)
  have hp := phase_near (by rw [abs_le]; constructor <;> linarith) (by rw [abs_le]; constructor <;> (norm_num at *; linarith)) ht hn
  rw [abs_le] at hp
  have pi3 := Real.pi_gt_d6
  have pi4 := Real.pi_lt_d6
  unfold phase
  generalize meanLongitude n - Real.pi + 0.0244287 * (n / 36525) - ((y - 2000 : ℤ) : ℝ) * (2 * Real.pi) = w at *
  constructor <;> norm_num at * <;> linarith [hp.1, hp.2]

end Verif
