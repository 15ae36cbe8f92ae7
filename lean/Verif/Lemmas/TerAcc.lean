import Verif.Lemmas.C2iAcc

/-!
# The celestial-to-terrestrial matrix and its action on vectors in binary64
-/

namespace Verif
open Arith F64 Spec Matrix

/-- The Earth rotation angle. -/
theorem era_ang {x y : F64} {a b : ℚ} (hx : Is x a) (hy : Is y b) (ha : |a| ≤ 4000000) (hb : |b| ≤ 4000000) :
    Ang (rotationAngle (x, y)) (rotationAngle ((a : ℝ), (b : ℝ))) (201 / 10 ^ 12) 7 := by
  obtain ⟨r, t, hr, ht, r0, rt, k, hk⟩ := C57_rotation_angle_accuracy x y a b hx hy ha hb
  obtain ⟨h0, h1, l, hl⟩ := C32_earth_rotation_angle (a : ℝ) b
  obtain ⟨c, hc, hc1, hc2, hc3⟩ := two_pi_q
  rw [ht.unique hc] at rt
  have rt' : (r : ℝ) ≤ 6.2832 := by
    have : r ≤ 6.2832 := rt.trans hc3
    have := (Rat.cast_le (K := ℝ)).mpr this
    norm_num at this ⊢
    exact this
  have r0' : (0 : ℝ) ≤ r := by exact_mod_cast r0
  have hp := two_pi_close
  have hpi := Real.pi_gt_d4
  have hpi' := Real.pi_lt_d4
  refine ⟨r, hr, ⟨-(k - l), ?_⟩, by rw [abs_of_nonneg r0']; linarith⟩
  generalize rotationAngle ((a : ℝ), (b : ℝ)) = ρ at *
  generalize (TWO_PI : ℝ) * (0.7790572732640 + 1.00273781191135448 * (a + b - 2451545)) = F at *
  have e1 : (r : ℝ) - (F + k * TWO_PI) = r - ρ - (k - l) * TWO_PI := by rw [hl]; ring
  rw [e1] at hk
  generalize (TWO_PI : ℝ) = T at *
  rw [abs_le] at hp
  have T1 : 6.28 ≤ T := by norm_num at hp hpi ⊢; linarith
  have T2 : T ≤ 6.2834 := by norm_num at hp hpi' ⊢; linarith
  have hkl : |((k - l : ℤ) : ℝ)| ≤ 1 := by
    have h3 : |k - l| < 2 := by
      by_contra hc
      push Not at hc
      have h4 : (2 : ℝ) ≤ |((k - l : ℤ) : ℝ)| := by exact_mod_cast hc
      have h5 : |((k : ℝ) - l) * T| ≤ 7 := by
        have e2 : ((k : ℝ) - l) * T = (r - ρ) - (r - ρ - (k - l) * T) := by ring
        rw [e2]
        refine (abs_sub _ _).trans ?_
        have : |(r : ℝ) - ρ| ≤ 6.2834 := by rw [abs_le]; constructor <;> linarith
        norm_num at this hk ⊢
        linarith
      rw [abs_mul, abs_of_nonneg (by linarith : 0 ≤ T)] at h5
      push_cast at h4
      nlinarith
    have : |k - l| ≤ 1 := by omega
    exact_mod_cast this
  have e3 : (r : ℝ) - (ρ - ((-(k - l) : ℤ) : ℝ) * (2 * Real.pi))
      = (r - ρ - (k - l) * T) + ((k - l : ℤ) : ℝ) * (T - 2 * Real.pi) := by push_cast; ring
  rw [e3]
  refine (abs_add_le _ _).trans ?_
  rw [abs_mul]
  have := mul_le_mul hkl (abs_le.mpr hp) (abs_nonneg _) zero_le_one
  norm_num at this hk ⊢
  linarith

/-- The polar motion matrix. -/
theorem pom_acc [Libm F64] (hL : LibmAcc) {xp yp : F64} {a b : ℝ} (hx : NB xp a (1 / 10 ^ 17) 1)
    (hy : NB yp b (1 / 10 ^ 17) 1) :
    MN (polarMotionMatrix xp yp (lit 0)) (polarMotionMatrix a b (lit 0)) (3 / 10 ^ 14) := by
  have n1 := hx.neg
  have n2 := hy.neg
  have n3 : NB (lit 0 : F64) (lit 0 : ℝ) 0 0 := zero_nb.congr (by simp)
  have m1 := MN.rot hL n2 0 (E := 27 / 10 ^ 16) (by norm_num)
  have m2 := MN.rot hL n1 1 (E := 27 / 10 ^ 16) (by norm_num)
  have m3 := MN.rot hL n3 2 (E := 27 / 10 ^ 16) (by norm_num)
  have r1 := IsRotation.rotation 0 (-b)
  have r2 := IsRotation.rotation 1 (-a)
  have r3 := IsRotation.rotation 2 (lit 0 : ℝ)
  have c1 := MN.identity.compose m1 IsRotation.identity r1 (E := 7 / 10 ^ 15) (by norm_num) (by norm_num) (by norm_num)
  have c2 := c1.compose m2 (IsRotation.identity.compose r1) r2 (E := 15 / 10 ^ 15) (by norm_num) (by norm_num) (by norm_num)
  exact c2.compose m3 ((IsRotation.identity.compose r1).compose r2) r3 (by norm_num) (by norm_num) (by norm_num)

theorem c2i_rotation (a b : ℝ) : IsRotation (celestialToIntermediate (a, b)) := rotation_xys _ _ _

theorem pom_rotation (a b c : ℝ) : IsRotation (polarMotionMatrix a b c) :=
  ((IsRotation.identity.compose (IsRotation.rotation 0 _)).compose (IsRotation.rotation 1 _)).compose
    (IsRotation.rotation 2 _)

/-- `celestial_to_terrestrial` in binary64, for an Earth rotation angle known to `ε`. -/
theorem c2t_ang [Libm F64] (hL : LibmAcc) {tt u : F64 × F64} {a b : ℝ} (h : |a + b - 2451545| ≤ 36525)
    (hT : NB (centuries tt) (centuries (a, b)) (3 / 10 ^ 14) 1) {c : ℝ × ℝ} {ε E p q : ℝ} {xp yp : F64}
    (hu : Ang (rotationAngle u) (rotationAngle c) ε 7) (hx : NB xp p (1 / 10 ^ 17) 1) (hy : NB yp q (1 / 10 ^ 17) 1)
    (hε : ε ≤ 1 / 10 ^ 6) (hE : ε + 8 / 10 ^ 12 ≤ E) :
    MN (celestialToTerrestrial tt u xp yp) (celestialToTerrestrial (a, b) c p q) E := by
  have e0 := hu.e_nonneg
  have m1 := c2i_acc hL h hT
  have m2 := MN.rotAng hL hu 2 (E := ε + 27 / 10 ^ 16) ⟨by norm_num, by norm_num⟩
  have m3 := pom_acc hL hx hy
  have r1 := c2i_rotation a b
  have r2 := IsRotation.rotation 2 (rotationAngle c)
  have r3 := pom_rotation p q (lit 0)
  have c1 := m2.compose m1 r2 r1 (E := ε + 71 / 10 ^ 13) (by norm_num at hε ⊢; linarith) (by norm_num)
    (by norm_num at hε ⊢; linarith)
  exact m3.compose c1 r3 (r2.compose r1) (by norm_num) (by norm_num at hε ⊢; linarith) (by norm_num at hε hE ⊢; linarith)

/-- `celestial_to_terrestrial` in binary64. -/
theorem c2t_acc [Libm F64] (hL : LibmAcc) {tt : F64 × F64} {a b : ℝ} (h : |a + b - 2451545| ≤ 36525)
    (hT : NB (centuries tt) (centuries (a, b)) (3 / 10 ^ 14) 1)
    {u w xp yp : F64} {c d p q : ℚ} (hu : Is u c) (hw : Is w d) (hc : |c| ≤ 4000000) (hd : |d| ≤ 4000000)
    (hx : Is xp p) (hy : Is yp q) (hp : |(p : ℝ)| ≤ 1) (hq : |(q : ℝ)| ≤ 1) :
    MN (celestialToTerrestrial tt (u, w) xp yp) (celestialToTerrestrial (a, b) ((c : ℝ), (d : ℝ)) p q)
      (21 / 10 ^ 11) :=
  c2t_ang hL h hT (era_ang hu hw hc hd) ((NB.of_is hx hp).mono (by norm_num)) ((NB.of_is hy hq).mono (by norm_num))
    (by norm_num) (by norm_num)

/-- The Earth rotation angle depends on the sum of the parts, 1.0028 turns per day. -/
theorem era_sens {a b a' b' Δ : ℝ} (h : |(a + b) - (a' + b')| ≤ Δ) (hΔ : Δ ≤ 1 / 10) :
    Cong (6.301 * Δ + 3 / 10 ^ 20) (rotationAngle (a, b)) (rotationAngle (a', b')) := by
  obtain ⟨h0, h1, l, hl⟩ := C32_earth_rotation_angle a b
  obtain ⟨h0', h1', l', hl'⟩ := C32_earth_rotation_angle a' b'
  have hp := two_pi_close
  have hpi := Real.pi_gt_d4
  have hpi' := Real.pi_lt_d4
  generalize rotationAngle (a, b) = ρ at *
  generalize rotationAngle (a', b') = ρ' at *
  generalize (TWO_PI : ℝ) = T at *
  rw [abs_le] at hp
  have T1 : 6.28 ≤ T := by norm_num at hp hpi ⊢; linarith
  have T2 : T ≤ 6.2834 := by norm_num at hp hpi' ⊢; linarith
  set D := (a + b) - (a' + b') with hD
  have e1 : ρ - ρ' - ((l - l' : ℤ) : ℝ) * T = T * 1.00273781191135448 * D := by rw [hl, hl', hD]; push_cast; ring
  have d0 : 0 ≤ Δ := (abs_nonneg _).trans h
  have e2 : |ρ - ρ' - ((l - l' : ℤ) : ℝ) * T| ≤ 6.3007 * Δ := by
    rw [e1, abs_mul, abs_of_nonneg (by positivity)]
    exact mul_le_mul (by norm_num at T2 ⊢; linarith) h (abs_nonneg _) (by norm_num)
  have hkl : |((l - l' : ℤ) : ℝ)| ≤ 1 := by
    have h3 : |l - l'| < 2 := by
      by_contra hc
      push Not at hc
      have h4 : (2 : ℝ) ≤ |((l - l' : ℤ) : ℝ)| := by exact_mod_cast hc
      have h5 : |((l - l' : ℤ) : ℝ) * T| ≤ 7 := by
        have e2' : ((l - l' : ℤ) : ℝ) * T = (ρ - ρ') - (ρ - ρ' - ((l - l' : ℤ) : ℝ) * T) := by ring
        rw [e2']
        refine (abs_sub _ _).trans ?_
        have : |ρ - ρ'| ≤ 6.2834 := by rw [abs_le]; constructor <;> linarith
        norm_num at this e2 ⊢
        linarith
      rw [abs_mul, abs_of_nonneg (by linarith : 0 ≤ T)] at h5
      nlinarith
    have : |l - l'| ≤ 1 := by omega
    exact_mod_cast this
  refine ⟨-(l - l'), ?_⟩
  have e3 : ρ - (ρ' - ((-(l - l') : ℤ) : ℝ) * (2 * Real.pi))
      = (ρ - ρ' - ((l - l' : ℤ) : ℝ) * T) + ((l - l' : ℤ) : ℝ) * (T - 2 * Real.pi) := by push_cast; ring
  rw [e3]
  refine (abs_add_le _ _).trans ?_
  rw [abs_mul]
  have := mul_le_mul hkl (abs_le.mpr hp) (abs_nonneg _) zero_le_one
  norm_num at this e2 ⊢
  linarith

theorem c2t_rotation (t u : ℝ × ℝ) (p q : ℝ) : IsRotation (celestialToTerrestrial t u p q) :=
  (pom_rotation _ _ _).compose ((IsRotation.rotation 2 _).compose (rotation_xys _ _ _))

/-- A float vector is within `e` of `w` in length. -/
def VN (v : Vec3 F64) (w : Fin 3 → ℝ) (e : ℝ) : Prop :=
  ∃ V : Fin 3 → ℝ, (∃ q, Is v.x q ∧ (q : ℝ) = V 0) ∧ (∃ q, Is v.y q ∧ (q : ℝ) = V 1) ∧ (∃ q, Is v.z q ∧ (q : ℝ) = V 2) ∧
    len (V - w) ≤ e

namespace VN
variable {v : Vec3 F64} {w : Fin 3 → ℝ} {e E : ℝ}

theorem e_nonneg (h : VN v w e) : 0 ≤ e := by
  obtain ⟨V, -, -, -, h⟩ := h
  exact (len_nonneg _).trans h

theorem mono (h : VN v w e) (he : e ≤ E) : VN v w E := by
  obtain ⟨V, h0, h1, h2, h3⟩ := h
  exact ⟨V, h0, h1, h2, h3.trans he⟩

theorem shift {w' : Fin 3 → ℝ} {d : ℝ} (h : VN v w e) (hd : len (w - w') ≤ d) (he : e + d ≤ E) : VN v w' E := by
  obtain ⟨V, h0, h1, h2, h3⟩ := h
  refine ⟨V, h0, h1, h2, ?_⟩
  have : V - w' = (V - w) + (w - w') := by abel
  rw [this]
  exact (len_add _ _).trans ((add_le_add h3 hd).trans he)

theorem of_nears (hx : Near v.x (w 0) e) (hy : Near v.y (w 1) e) (hz : Near v.z (w 2) e) (hE : 7 / 4 * e ≤ E) : VN v w E := by
  have e0 := hx.e_nonneg
  obtain ⟨a, ha, ha'⟩ := hx
  obtain ⟨b, hb, hb'⟩ := hy
  obtain ⟨c, hc, hc'⟩ := hz
  refine ⟨![a, b, c], ⟨a, ha, rfl⟩, ⟨b, hb, rfl⟩, ⟨c, hc, rfl⟩, (len_le_of (e := e) (c := 7 / 4 * e) ?_ (by nlinarith [sq_nonneg e]) (by positivity)).trans hE⟩
  intro i
  fin_cases i
  · exact ha'
  · exact hb'
  · exact hc'

theorem near (h : VN v w e) : Near v.x (w 0) e ∧ Near v.y (w 1) e ∧ Near v.z (w 2) e := by
  obtain ⟨V, ⟨a, ha, ha'⟩, ⟨b, hb, hb'⟩, ⟨c, hc, hc'⟩, h3⟩ := h
  refine ⟨⟨a, ha, ?_⟩, ⟨b, hb, ?_⟩, ⟨c, hc, ?_⟩⟩
  · rw [ha']; exact (abs_le_len (V - w) 0).trans h3
  · rw [hb']; exact (abs_le_len (V - w) 1).trans h3
  · rw [hc']; exact (abs_le_len (V - w) 2).trans h3

/-- `Mat3::apply`, which multiplies by the transpose. -/
theorem apply {m : Mat3 F64} {R : Mat3 ℝ} {δ L : ℝ} (hm : MN m R δ) (hR : IsRotation R) (hδ : δ ≤ 1 / 1000)
    (h : VN v w e) (hw : len w + e ≤ L) (L1 : 1 / 1000 ≤ L) (L2 : L ≤ 10 ^ 15)
    (hE : δ * L + e + L * (2 / 10 ^ 15) ≤ E) : VN (m.apply v) (R.toMatrixᵀ *ᵥ w) E := by
  obtain ⟨M, h1, h2⟩ := hm
  obtain ⟨V, ⟨a, ha, ha'⟩, ⟨b, hb, hb'⟩, ⟨c, hc, hc'⟩, h3⟩ := h
  have lV : len V ≤ L := by
    have : V = w + (V - w) := by abel
    rw [this]
    exact (len_add _ _).trans ((add_le_add le_rfl h3).trans hw)
  have hM : ∀ i j, NB (m.get i j) (M i j) 0 1.001 := fun i j => by
    obtain ⟨q, hq, hq'⟩ := h1 i j
    refine NB.of_is' hq hq' ?_
    have g1 := h2.entry i j
    have g2 := (MB.of_rotation hR).entry i j
    have : M i j = (M - R.toMatrix) i j + R.toMatrix i j := by rw [Matrix.sub_apply]; ring
    rw [this]
    refine (abs_add_le _ _).trans ?_
    norm_num at g1 g2 hδ ⊢
    linarith
  have n0 : NB v.x (V 0) 0 L := NB.of_is' ha ha' ((abs_le_len _ _).trans lV)
  have n1 : NB v.y (V 1) 0 L := NB.of_is' hb hb' ((abs_le_len _ _).trans lV)
  have n2 : NB v.z (V 2) 0 L := NB.of_is' hc hc' ((abs_le_len _ _).trans lV)
  have key : ∀ {a b c : F64} {A B C : ℝ}, NB a A 0 1.001 → NB b B 0 1.001 → NB c C 0 1.001 →
      NB ((a *. v.x +. b *. v.y) +. c *. v.z) (A * V 0 + B * V 1 + C * V 2) (L * (11 / 10 ^ 16)) (L * 3.01) := by
    intro a b c A B C ga gb gc
    have p0 := ga.mul n0 (E := L * (1.2 / 10 ^ 16)) (M := L * 1.001) ⟨by norm_num at L1 L2 ⊢; linarith, by linarith, by norm_num at L1 L2 ⊢; linarith⟩
    have p1 := gb.mul n1 (E := L * (1.2 / 10 ^ 16)) (M := L * 1.001) ⟨by norm_num at L1 L2 ⊢; linarith, by linarith, by norm_num at L1 L2 ⊢; linarith⟩
    have p2 := gc.mul n2 (E := L * (1.2 / 10 ^ 16)) (M := L * 1.001) ⟨by norm_num at L1 L2 ⊢; linarith, by linarith, by norm_num at L1 L2 ⊢; linarith⟩
    have s1 := p0.add p1 (E := L * (4.7 / 10 ^ 16)) (M := L * 2.002) ⟨by norm_num at L1 L2 ⊢; linarith, by linarith, by norm_num at L1 L2 ⊢; linarith⟩
    exact s1.add p2 ⟨by norm_num at L1 L2 ⊢; linarith, by linarith, by norm_num at L1 L2 ⊢; linarith⟩
  have q0 := key (hM 0 0) (hM 1 0) (hM 2 0)
  have q1 := key (hM 0 1) (hM 1 1) (hM 2 1)
  have q2 := key (hM 0 2) (hM 1 2) (hM 2 2)
  have hv : VN (m.apply v) (Mᵀ *ᵥ V) (7 / 4 * (L * (11 / 10 ^ 16))) := by
    refine of_nears (e := L * (11 / 10 ^ 16)) (q0.congr ?_).near (q1.congr ?_).near (q2.congr ?_).near le_rfl <;>
    · simp only [Matrix.mulVec, dotProduct, Fin.sum_univ_three, Matrix.transpose_apply]
  refine hv.shift (d := δ * L + e) ?_ (by norm_num at hE L1 ⊢; linarith)
  have e1 : Mᵀ *ᵥ V - R.toMatrixᵀ *ᵥ w = (M - R.toMatrix)ᵀ *ᵥ V + R.toMatrixᵀ *ᵥ (V - w) := by
    rw [Matrix.transpose_sub, Matrix.sub_mulVec, Matrix.mulVec_sub]; abel
  rw [e1]
  have g1 := h2.transpose.vec V
  have g2 := (MB.of_rotation hR).transpose.vec (V - w)
  have d0 := h2.nonneg
  have g3 : δ * len V ≤ δ * L := by gcongr
  refine (len_add _ _).trans ?_
  linarith

end VN
end Verif
