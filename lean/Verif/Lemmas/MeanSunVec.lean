import Verif.Lemmas.MeanSun

/-!
# The series for the Earth and the rotation of the Earth against the mean Sun
-/

namespace Verif
open Arith Matrix Spec

/-- Direction of perihelion. -/
theorem perihelion_bounds : |Real.cos perihelion + 0.22388| ≤ 1e-4 ∧ |Real.sin perihelion - 0.97451| ≤ 1.5e-4 := by
  have p1 := Real.pi_gt_d20
  have p2 := Real.pi_lt_d20
  set z := perihelion - Real.pi / 2 with hz
  have e : perihelion = z + Real.pi / 2 := by rw [hz]; ring
  have z1 : 0.225805 ≤ z := by rw [hz]; unfold perihelion; norm_num at p1 p2 ⊢; linarith
  have z2 : z ≤ 0.225806 := by rw [hz]; unfold perihelion; norm_num at p1 p2 ⊢; linarith
  have za : |z| ≤ 1 := by rw [abs_le]; constructor <;> linarith
  rw [e, Real.cos_add_pi_div_two, Real.sin_add_pi_div_two]
  have hs := Real.sin_bound za
  have hc := Real.cos_bound za
  rw [abs_of_pos (show 0 < z by linarith), abs_le] at hs hc
  have w1 : z ^ 2 ≤ 0.225806 ^ 2 := by gcongr
  have w2 : 0.225805 ^ 2 ≤ z ^ 2 := by gcongr
  have w3 : z ^ 3 ≤ 0.225806 ^ 3 := by gcongr
  have w4 : 0.225805 ^ 3 ≤ z ^ 3 := by gcongr
  have w5 : z ^ 4 ≤ 0.225806 ^ 4 := by gcongr
  have w6 : z ^ 5 ≤ 0.225806 ^ 5 := by gcongr
  constructor <;> rw [abs_le] <;> constructor <;> norm_num at * <;> linarith [hs.1, hs.2, hc.1, hc.2]

/-- The heliocentric Earth in the ecliptic frame. -/
theorem ecl_near {s n : ℝ} (h : |s - 2451545| ≤ 36525) (hn : |s - 2451545 - n| ≤ 0.00154) :
    |helioEcl 0 (years s) - meanEarth n 0| ≤ 8.45e-4 ∧ |helioEcl 1 (years s) - meanEarth n 1| ≤ 7.25e-4 ∧
    |helioEcl 2 (years s) - meanEarth n 2| ≤ 2.5e-4 := by
  have p1 := Real.pi_gt_d20
  have p2 := Real.pi_lt_d20
  have ht : |years s| ≤ 100 := by
    unfold years
    rw [abs_div, abs_of_pos (show (0 : ℝ) < 365.25 by norm_num), div_le_iff₀ (by norm_num)]
    norm_num; exact h
  obtain ⟨ex, hex, hx⟩ := helioX _ ht
  obtain ⟨ey, hey, hy⟩ := helioY _ ht
  have hz := helioZ _ ht
  obtain ⟨o1, o2⟩ := perihelion_bounds
  rw [hx, hy]
  have e0 : meanEarth n 0 = Real.cos (meanLongitude n) - eccentricity / 2 * (3 * Real.cos perihelion -
    Real.cos (2 * meanLongitude n - perihelion)) := rfl
  have e1 : meanEarth n 1 = Real.sin (meanLongitude n) - eccentricity / 2 * (3 * Real.sin perihelion -
    Real.sin (2 * meanLongitude n - perihelion)) := rfl
  have e2 : meanEarth n 2 = 0 := rfl
  rw [e0, e1, e2, sub_zero]
  -- the phases
  have hL : |1.75343755707 + 0.01720212396717 * n - meanLongitude n| ≤ 1e-9 := by
    have hn' : |n| ≤ 36526 := by
      rw [abs_le] at *; constructor <;> linarith [h.1, h.2, hn.1, hn.2]
    rw [abs_le] at hn'
    have : meanLongitude n = (100.46457166 / 180 + 35999.37244981 / 36525 / 180 * n) * Real.pi := by
      unfold meanLongitude; ring
    rw [this]
    have q1 : |(Real.pi - 3.14159265358979323846) * n| ≤ 1e-15 := by
      rw [abs_mul]
      refine (mul_le_mul (b := 1e-20) ?_ (abs_le.mpr hn') (abs_nonneg _) (by norm_num)).trans (by norm_num)
      rw [abs_le]; constructor <;> norm_num at p1 p2 ⊢ <;> linarith
    have q2 : (100.46457166 / 180 + 35999.37244981 / 36525 / 180 * n) * Real.pi =
      100.46457166 / 180 * Real.pi + 35999.37244981 / 36525 / 180 * (3.14159265358979323846 * n) +
      35999.37244981 / 36525 / 180 * ((Real.pi - 3.14159265358979323846) * n) := by ring
    rw [q2]
    generalize (Real.pi - 3.14159265358979323846) * n = w at *
    rw [abs_le] at q1 ⊢
    constructor <;> norm_num at p1 p2 q1 ⊢ <;> linarith [hn'.1, hn'.2, q1.1, q1.2]
  have hP : |1.796601474049 - perihelion| ≤ 1e-11 := by
    unfold perihelion
    rw [abs_le]; constructor <;> norm_num at p1 p2 ⊢ <;> linarith
  have hy' : years s = (s - 2451545) / 365.25 := rfl
  rw [hy'] at hz ⊢
  generalize s - 2451545 = m at *
  generalize meanLongitude n = L at *
  generalize perihelion = P at *
  clear e0 e1 e2 hx hy hy'
  rw [abs_le] at h hn hL hP
  norm_num at h hn hL hP
  have k1 := cos_near (1.753485171504 + 6.283075850446 * (m / 365.25)) L 8.2e-5 (by
    rw [abs_le]; constructor <;> norm_num <;> linarith [h.1, h.2, hn.1, hn.2, hL.1, hL.2])
  have k2 := cos_near (1.710344404582 + 12.56615170089 * (m / 365.25)) (2 * L - P) 1.5e-4 (by
    rw [abs_le]; constructor <;> norm_num <;> linarith [h.1, h.2, hn.1, hn.2, hL.1, hL.2, hP.1, hP.2])
  have k3 := cos_near (0.1826583913846 + 6.283075850446 * (m / 365.25)) (L - Real.pi / 2) 5.2e-5 (by
    rw [abs_le]; constructor <;> norm_num at p1 p2 ⊢ <;> linarith [h.1, h.2, hn.1, hn.2, hL.1, hL.2])
  have k4 := cos_near (0.139527799868 + 12.56615170089 * (m / 365.25)) (2 * L - P - Real.pi / 2) 1.3e-4 (by
    rw [abs_le]; constructor <;> norm_num at p1 p2 ⊢ <;> linarith [h.1, h.2, hn.1, hn.2, hL.1, hL.2, hP.1, hP.2])
  rw [Real.cos_sub_pi_div_two] at k3 k4
  have c1 := Real.abs_cos_le_one (1.753485171504 + 6.283075850446 * (m / 365.25))
  have c2 := Real.abs_cos_le_one (1.710344404582 + 12.56615170089 * (m / 365.25))
  have c3 := Real.abs_cos_le_one (0.1826583913846 + 6.283075850446 * (m / 365.25))
  have c4 := Real.abs_cos_le_one (0.139527799868 + 12.56615170089 * (m / 365.25))
  generalize Real.cos (1.753485171504 + 6.283075850446 * (m / 365.25)) = a1 at *
  generalize Real.cos (1.710344404582 + 12.56615170089 * (m / 365.25)) = a2 at *
  generalize Real.cos (0.1826583913846 + 6.283075850446 * (m / 365.25)) = a3 at *
  generalize Real.cos (0.139527799868 + 12.56615170089 * (m / 365.25)) = a4 at *
  generalize Real.cos L = b1 at *
  generalize Real.cos (2 * L - P) = b2 at *
  generalize Real.sin L = b3 at *
  generalize Real.sin (2 * L - P) = b4 at *
  generalize Real.cos P = b5 at *
  generalize Real.sin P = b6 at *
  clear h hn hL hP p1 p2 ht
  rw [abs_le] at k1 k2 k3 k4 c1 c2 c3 c4 o1 o2 hex hey
  unfold eccentricity
  norm_num at k1 k2 k3 k4 c1 c2 c3 c4 o1 o2 hex hey
  obtain ⟨⟨k1, k1'⟩, ⟨k2, k2'⟩, ⟨k3, k3'⟩, ⟨k4, k4'⟩⟩ := And.intro k1 (And.intro k2 (And.intro k3 k4))
  obtain ⟨⟨c1, c1'⟩, ⟨c2, c2'⟩, ⟨c3, c3'⟩, ⟨c4, c4'⟩⟩ := And.intro c1 (And.intro c2 (And.intro c3 c4))
  obtain ⟨o1, o1'⟩ := o1
  obtain ⟨o2, o2'⟩ := o2
  obtain ⟨hex, hex'⟩ := hex
  obtain ⟨hey, hey'⟩ := hey
  refine ⟨?_, ?_, hz⟩
  · clear k3 k3' k4 k4' c3 c3' c4 c4' o2 o2' hey hey' hz
    rw [abs_le]; constructor <;> norm_num <;> linarith
  · clear k1 k1' k2 k2' c1 c1' c2 c2' o1 o1' hex hex' hz
    rw [abs_le]; constructor <;> norm_num <;> linarith

theorem obliquity_near : |obliquity - 0.4090928| ≤ 1e-7 := by
  have p1 := Real.pi_gt_d20
  have p2 := Real.pi_lt_d20
  unfold obliquity
  rw [abs_le]; constructor <;> norm_num at p1 p2 ⊢ <;> linarith

/-- The heliocentric Earth of the program against the mean orbit. -/
theorem earth_near {s n : ℝ} (h : |s - 2451545| ≤ 36525) (hn : |s - 2451545 - n| ≤ 0.00154) :
    len ((earthAt s).heliocentric.p.toVec - R1 (-obliquity) *ᵥ meanEarth n) ≤ 1.146e-3 := by
  obtain ⟨h0, h1, h2⟩ := ecl_near h hn
  obtain ⟨so, co⟩ := sincos_obl obliquity_near
  set v : Fin 3 → ℝ := ![helioEcl 0 (years s), helioEcl 1 (years s), helioEcl 2 (years s)] with hv
  set E : M3 := !![1, 0.000000211284, -0.000000091603; -0.000000230286, 0.917482137087, -0.397776982902;
    0, 0.397776982902, 0.917482137087] with hE
  have e : (earthAt s).heliocentric.p.toVec = E *ᵥ v := by
    show (toICRF _).toVec = _
    rw [toICRF_real]
    ext i
    fin_cases i <;> simp [Vec3.toVec, hE, hv, Matrix.mulVec, dotProduct, Fin.sum_univ_three] <;> ring
  have hd : MB (E - R1 (-obliquity)) (3 * 6.5e-7) := by
    apply MB.of_entries
    intro i j
    rw [abs_le] at so co
    norm_num at so co
    fin_cases i <;> fin_cases j <;> simp [hE, R1] <;> (try rw [abs_le]) <;> (try constructor) <;> norm_num <;> linarith [so.1, so.2, co.1, co.2]
  have hl : len (v - meanEarth n) ≤ 1.142e-3 := by
    refine Real.sqrt_le_iff.mpr ⟨by norm_num, ?_⟩
    have g0 : (v - meanEarth n) 0 ^ 2 ≤ 8.45e-4 ^ 2 := sq_le_sq' (by linarith [(abs_le.mp h0).1, show (v - meanEarth n) 0 = helioEcl 0 (years s) - meanEarth n 0 from rfl]) (abs_le.mp h0).2
    have g1 : (v - meanEarth n) 1 ^ 2 ≤ 7.25e-4 ^ 2 := sq_le_sq' (by linarith [(abs_le.mp h1).1, show (v - meanEarth n) 1 = helioEcl 1 (years s) - meanEarth n 1 from rfl]) (abs_le.mp h1).2
    have g2 : (v - meanEarth n) 2 ^ 2 ≤ 2.5e-4 ^ 2 := sq_le_sq' (by linarith [(abs_le.mp h2).1, show (v - meanEarth n) 2 = helioEcl 2 (years s) - meanEarth n 2 from rfl]) (abs_le.mp h2).2
    norm_num at *
    linarith
  have hb : len v ≤ 1.0188 := by
    have ht : |years s| ≤ 100 := by
      unfold years
      rw [abs_div, abs_of_pos (show (0 : ℝ) < 365.25 by norm_num), div_le_iff₀ (by norm_num)]
      norm_num; exact h
    exact Real.sqrt_le_iff.mpr ⟨by norm_num, (helio_dist _ ht).2⟩
  have e2 : E *ᵥ v - R1 (-obliquity) *ᵥ meanEarth n = (E - R1 (-obliquity)) *ᵥ v + R1 (-obliquity) *ᵥ (v - meanEarth n) := by
    rw [sub_mulVec, mulVec_sub]; abel
  rw [e, e2]
  refine (len_add _ _).trans ?_
  have := hd.vec v
  have := (MB.R1 (-obliquity)).vec (v - meanEarth n)
  norm_num at *
  linarith

/-- The rotation of the Earth of the program against the published angle. -/
theorem era_near {u v n : ℝ} (hn : |u + v - 2451545 - n| ≤ 8.35e-7) :
    MB (R3 (rotationAngle (u, v)) - R3 (earthAngle n)) 5.3e-6 := by
  obtain ⟨h1, h2, k, h3⟩ := C32_earth_rotation_angle u v
  have p1 := Real.pi_gt_d20
  have p2 := Real.pi_lt_d20
  have hT : (TWO_PI : ℝ) = 6.283185307179586476925287 := by unfold TWO_PI; norm_num
  have e : R3 (earthAngle n) = R3 (2 * Real.pi * (0.7790572732640 + 1.00273781191135448 * n + k)) := by
    have : 2 * Real.pi * (0.7790572732640 + 1.00273781191135448 * n + k) = earthAngle n + k * (2 * Real.pi) := by
      unfold earthAngle; ring
    rw [this]
    unfold R3
    rw [Real.cos_add_int_mul_two_pi, Real.sin_add_int_mul_two_pi]
  rw [e]
  have := MB.rotation_diff 2 (rotationAngle (u, v)) (2 * Real.pi * (0.7790572732640 + 1.00273781191135448 * n + k))
  rw [rot_R3, rot_R3] at this
  refine this.mono ?_
  clear this e
  set f := 0.7790572732640 + 1.00273781191135448 * (u + v - 2451545) + k with hf
  have e1 : rotationAngle (u, v) = TWO_PI * f := by rw [h3, hf]; ring
  rw [e1] at h1 h2 ⊢
  rw [hT] at h1 h2 ⊢
  have f0 : 0 ≤ f := by nlinarith
  have f1 : f ≤ 1 := by nlinarith
  have e2 : 6.283185307179586476925287 * f - 2 * Real.pi * (0.7790572732640 + 1.00273781191135448 * n + k) =
    (6.283185307179586476925287 - 2 * Real.pi) * f + 2 * Real.pi * 1.00273781191135448 * (u + v - 2451545 - n) := by
    rw [hf]; ring
  rw [e2]
  refine (abs_add_le _ _).trans ?_
  rw [abs_mul, abs_mul]
  have a1 : |6.283185307179586476925287 - 2 * Real.pi| ≤ 1e-15 := by
    rw [abs_le]; constructor <;> norm_num at p1 p2 ⊢ <;> linarith
  have a2 : |2 * Real.pi * 1.00273781191135448| ≤ 6.3004 := by
    rw [abs_le]; constructor <;> norm_num at p1 p2 ⊢ <;> linarith
  have b1 := mul_le_mul a1 ((abs_le.mpr ⟨by linarith, f1⟩ : |f| ≤ 1)) (abs_nonneg _) (by norm_num)
  have b2 := mul_le_mul a2 hn (abs_nonneg _) (by norm_num)
  norm_num at b1 b2 ⊢
  linarith

/-- The whole celestial to terrestrial matrix against first order precession and the rotation of the Earth. -/
theorem c2t_near {a b u v n : ℝ} (h : |a + b - 2451545| ≤ 36525) (hn : |a + b - 2451545 - n| ≤ 0.00154)
    (hu : |u + v - 2451545 - n| ≤ 8.35e-7) :
    MB ((celestialToTerrestrial (a, b) (u, v) (0.0349282 * AS2R) (0.4833163 * AS2R)).toMatrix -
      R3 (earthAngle n) * meanPrecession n) 3.6e-4 ∧ MB (meanPrecession n) 1.01 := by
  have hc := c2i_near h
  have p1 := Real.pi_gt_d20
  have p2 := Real.pi_lt_d20
  have hA : (AS2R : ℝ) = 4.848136811095359935899141e-6 := by unfold AS2R; norm_num
  have hN : |n| ≤ 36526 := by rw [abs_le] at *; constructor <;> linarith [h.1, h.2, hn.1, hn.2]
  have hpd : MB (meanPrecession (a + b - 2451545) - meanPrecession n) 1e-8 := by
    have e : meanPrecession (a + b - 2451545) - meanPrecession n =
      !![0, 0, -(precessionAngle (a + b - 2451545) - precessionAngle n); 0, 0, -0; precessionAngle (a + b - 2451545) - precessionAngle n, 0, 0] := by
      unfold meanPrecession
      ext i j; fin_cases i <;> fin_cases j <;> simp <;> ring
    rw [e]
    have : |precessionAngle (a + b - 2451545) - precessionAngle n| ≤ 1e-8 := by
      have : precessionAngle (a + b - 2451545) - precessionAngle n =
        2004.3109 / 3600 / 180 / 36525 * Real.pi * (a + b - 2451545 - n) := by unfold precessionAngle; ring
      rw [this, abs_mul]
      refine (mul_le_mul (b := 1e-6) ?_ hn (abs_nonneg _) (by norm_num)).trans (by norm_num)
      rw [abs_le]; constructor <;> norm_num at p1 p2 ⊢ <;> linarith
    refine MB.tilt (by norm_num) ?_
    have := sq_le_sq' (by linarith [(abs_le.mp this).1]) (abs_le.mp this).2
    simpa using this
  have mP : MB (meanPrecession n) 1.01 := by
    have e : meanPrecession n = 1 + !![0, 0, -precessionAngle n; 0, 0, -0; precessionAngle n, 0, 0] := by
      unfold meanPrecession
      ext i j; fin_cases i <;> fin_cases j <;> simp
    rw [e]
    have m1 : MB (1 : M3) 1 := MB.one_of_orth (by simp)
    refine (m1.add (MB.tilt (e := 0.01) (by norm_num) ?_)).mono (by norm_num)
    have : |precessionAngle n| ≤ 0.01 := by
      have : precessionAngle n = 2004.3109 / 3600 / 180 / 36525 * Real.pi * n := by unfold precessionAngle; ring
      rw [this, abs_mul]
      refine (mul_le_mul (b := 2.67e-7) ?_ hN (abs_nonneg _) (by norm_num)).trans (by norm_num)
      rw [abs_le]; constructor <;> norm_num at p1 p2 ⊢ <;> linarith
    have := sq_le_sq' (by linarith [(abs_le.mp this).1]) (abs_le.mp this).2
    simpa using this
  refine ⟨?_, mP⟩
  have he := era_near hu
  rw [C43_product]
  change MB (_ * R3 (rotationAngle (u, v)) * _ - _) _
  rw [C43_polar_motion_general]
  have hW : MB (R1 (-(0.4833163 * AS2R)) * R2 (-(0.0349282 * AS2R)) * R3 0 - 1) 2.6e-6 := by
    refine (MB.mul_one (MB.R3 _) (MB.mul_one (MB.R2 _) (MB.R1_one _) (MB.R2_one _)) (MB.R3_one _)).mono ?_
    rw [hA]
    norm_num [abs_of_pos, abs_of_neg]
  set W := R1 (-(0.4833163 * AS2R)) * R2 (-(0.0349282 * AS2R)) * R3 0 with hWd
  have mW : MB W 1 := (((MB.R1 _).mul (MB.R2 _)).mul (MB.R3 _)).mono (by norm_num)
  clear_value W
  have mR := MB.R3 (rotationAngle (u, v))
  have mR' := MB.R3 (earthAngle n)
  generalize R3 (rotationAngle (u, v)) = R at *
  generalize R3 (earthAngle n) = R' at *
  generalize (celestialToIntermediate (a, b)).toMatrix = C at *
  generalize meanPrecession (a + b - 2451545) = Q at *
  generalize meanPrecession n = Q' at *
  have e : W * R * C - R' * Q' = W * R * ((C - Q) + (Q - Q')) + ((W - 1) * R + (R - R')) * Q' := by noncomm_ring
  rw [e]
  exact (((mW.mul mR).mul (hc.add hpd)).add (((hW.mul mR).add he).mul mP)).mono (by norm_num)

/-- The Sun of the program in the terrestrial frame against the mean Sun, in astronomical units. -/
theorem sun_near {a b u v n : ℝ} (h : |a + b - 2451545| ≤ 36525) (hn : |a + b - 2451545 - n| ≤ 0.00154)
    (hu : |u + v - 2451545 - n| ≤ 8.35e-7) :
    len ((celestialToTerrestrial (a, b) (u, v) (0.0349282 * AS2R) (0.4833163 * AS2R)).toMatrix *ᵥ
      (-(earthAt (a + b)).heliocentric.p.toVec) - meanSun n) ≤ 0.00155 := by
  obtain ⟨hm, mP⟩ := c2t_near h hn hu
  have he := earth_near h hn
  have hb : len (earthAt (a + b)).heliocentric.p.toVec ≤ 1.019 := by
    have := (C36_distance a b h _ (fromTDB_real (a, b))).2
    rw [norm_real] at this
    exact this
  generalize (celestialToTerrestrial (a, b) (u, v) (0.0349282 * AS2R) (0.4833163 * AS2R)).toMatrix = M at *
  generalize (earthAt (a + b)).heliocentric.p.toVec = w at *
  unfold meanSun
  have mR := MB.R3 (earthAngle n)
  generalize R3 (earthAngle n) = R at *
  generalize meanPrecession n = Q at *
  have e : M *ᵥ (-w) - R *ᵥ (Q *ᵥ (R1 (-obliquity) *ᵥ (-meanEarth n))) =
    (M - R * Q) *ᵥ (-w) + (R * Q) *ᵥ (-(w - R1 (-obliquity) *ᵥ meanEarth n)) := by
    simp only [sub_mulVec, neg_sub, mulVec_sub, mulVec_neg, mulVec_mulVec, Matrix.mul_assoc]
    abel
  rw [e]
  refine (len_add _ _).trans ?_
  have ln : ∀ x : Fin 3 → ℝ, len (-x) = len x := fun x => by unfold len; simp
  have g1 := hm.vec (-w)
  have g2 := (mR.mul mP).vec (-(w - R1 (-obliquity) *ᵥ meanEarth n))
  rw [ln] at g1 g2
  norm_num at *
  linarith

end Verif
