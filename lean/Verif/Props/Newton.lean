import Verif.Lemmas.Newton
import Verif.Lemmas.DeclMotion
import Verif.Props.TurnVectors
import Verif.Props.EarthAccuracy

/-!
# C117: the Earth obeys the law of gravitation
-/

namespace Verif
open Arith F64

/-- Attraction of the Sun at the place `p` (au), in au per day squared, with Gauss's constant. -/
noncomputable def gravity (p : Fin 3 → ℝ) : Fin 3 → ℝ := fun i => -(0.01720209895 ^ 2 / len p ^ 3) * p i

/-- Acceleration in the frame of the results. -/
noncomputable def earthAcc (s : ℝ) : Vec3 ℝ :=
  toICRF ⟨helioEcl'' 0 (years s) / 365.25 / 365.25, helioEcl'' 1 (years s) / 365.25 / 365.25,
    helioEcl'' 2 (years s) / 365.25 / 365.25⟩

theorem earthAcc_deriv (s : ℝ) : VecDeriv (fun u => (earthAt u).heliocentric.v) (earthAcc s) s :=
  VecDeriv.toICRF ⟨deriv_comp ((hasDerivAt_helioEcl' 0 _).div_const _), deriv_comp ((hasDerivAt_helioEcl' 1 _).div_const _),
    deriv_comp ((hasDerivAt_helioEcl' 2 _).div_const _)⟩

theorem earthAcc_newton {s : ℝ} (h : |s - 2451545| ≤ 36525) :
    len ((earthAcc s).toVec - gravity (earthAt s).heliocentric.p.toVec) ≤ 0.0186 * 0.01720209895 ^ 2 := by
  have ht : |years s| ≤ 100 := by
    unfold years
    rw [abs_div, abs_of_pos (show (0 : ℝ) < 365.25 by norm_num), div_le_iff₀ (by norm_num)]
    norm_num at h ⊢; exact h
  obtain ⟨l1, -⟩ := helio_len h
  have lp := len_sq (earthAt s).heliocentric.p.toVec
  obtain ⟨ρ, hρ⟩ : ∃ ρ, ρ = len (earthAt s).heliocentric.p.toVec := ⟨_, rfl⟩
  have d2 := (helio_dist _ ht).2
  have n := toICRF_norm ⟨helioEcl 0 (years s), helioEcl 1 (years s), helioEcl 2 (years s)⟩
  have e0 : (earthAt s).heliocentric.p.toVec 0 = (toICRF ⟨helioEcl 0 (years s), helioEcl 1 (years s), helioEcl 2 (years s)⟩).x := rfl
  have e1 : (earthAt s).heliocentric.p.toVec 1 = (toICRF ⟨helioEcl 0 (years s), helioEcl 1 (years s), helioEcl 2 (years s)⟩).y := rfl
  have e2 : (earthAt s).heliocentric.p.toVec 2 = (toICRF ⟨helioEcl 0 (years s), helioEcl 1 (years s), helioEcl 2 (years s)⟩).z := rfl
  rw [e0, e1, e2] at lp
  rw [← lp, ← hρ] at n
  rw [← hρ] at l1
  have N := newton_ecl _ ht ρ (by linarith) (n.trans (by norm_num at d2 ⊢; linarith))
  have M := toICRF_norm ⟨(helioEcl'' 0 (years s) + gaussYear / ρ ^ 3 * helioEcl 0 (years s)) / 365.25 ^ 2,
    (helioEcl'' 1 (years s) + gaussYear / ρ ^ 3 * helioEcl 1 (years s)) / 365.25 ^ 2,
    (helioEcl'' 2 (years s) + gaussYear / ρ ^ 3 * helioEcl 2 (years s)) / 365.25 ^ 2⟩
  refine Real.sqrt_le_iff.mpr ⟨by norm_num, ?_⟩
  have q : gaussYear / ρ ^ 3 / 365.25 ^ 2 = 0.01720209895 ^ 2 / ρ ^ 3 := by unfold gaussYear; ring
  obtain ⟨g, hg⟩ : ∃ g, g = 0.01720209895 ^ 2 / ρ ^ 3 := ⟨_, rfl⟩
  have q' : gaussYear / ρ ^ 3 = g * 365.25 ^ 2 := by rw [hg, ← q]; field_simp
  rw [q'] at N M
  have f : ∀ i, gravity (earthAt s).heliocentric.p.toVec i = -g * (earthAt s).heliocentric.p.toVec i := fun i => by
    unfold gravity; rw [← hρ, hg]
  have c0 : (earthAcc s).toVec 0 = (earthAcc s).x := rfl
  have c1 : (earthAcc s).toVec 1 = (earthAcc s).y := rfl
  have c2 : (earthAcc s).toVec 2 = (earthAcc s).z := rfl
  simp only [Pi.sub_apply, f, e0, e1, e2, c0, c1, c2]
  unfold earthAcc
  simp only [toICRF_real] at M ⊢
  generalize helioEcl 0 (years s) = x at *
  generalize helioEcl 1 (years s) = y at *
  generalize helioEcl 2 (years s) = z at *
  generalize helioEcl'' 0 (years s) = x' at *
  generalize helioEcl'' 1 (years s) = y' at *
  generalize helioEcl'' 2 (years s) = z' at *
  simp only [div_pow, ← add_div] at M
  have M' := (abs_le.mp M).2
  refine le_trans (le_of_eq ?_) ((sub_le_iff_le_add.mp M').trans ?_)
  · ring
  · norm_num at N ⊢
    linarith

/-- **C117.** For every date within a century of J2000.0 the reported velocity of the Earth around the Sun has a derivative,
and it differs from the attraction of the Sun at the reported position by at most 1.9 per cent of the attraction at unit distance. -/
theorem C117_newton (s : ℝ) (h : |s - 2451545| ≤ 36525) (split : ℝ → ℝ × ℝ) (hs : ∀ u, (split u).1 + (split u).2 = u)
    (p v : ℝ → Fin 3 → ℝ) (hp : ∀ u e, EarthPosVel.fromTDB (split u) = .ok e → p u = e.heliocentric.p.toVec)
    (hv : ∀ u e, EarthPosVel.fromTDB (split u) = .ok e → v u = e.heliocentric.v.toVec) :
    ∃ A : Fin 3 → ℝ, (∀ i, HasDerivAt (fun u => v u i) (A i) s) ∧
      len (A - gravity (p s)) ≤ 0.019 * 0.01720209895 ^ 2 := by
  have ev : ∀ u, v u = (earthAt u).heliocentric.v.toVec := fun u => by
    have := hv u _ (fromTDB_real _); rwa [hs] at this
  have ep : p s = (earthAt s).heliocentric.p.toVec := by
    have := hp s _ (fromTDB_real _); rwa [hs] at this
  refine ⟨(earthAcc s).toVec, fun i => ?_, ?_⟩
  · simp only [ev]
    obtain ⟨h0, h1, h2⟩ := earthAcc_deriv s
    fin_cases i
    exacts [h0, h1, h2]
  · rw [ep]
    exact (earthAcc_newton h).trans (by norm_num)

theorem gravity_lip {p q : Fin 3 → ℝ} (hp : 0.9819 ≤ len p) (hq : 0.9819 ≤ len q) (hp' : len p ≤ 1.0191) (hq' : len q ≤ 1.0191) :
    len (gravity p - gravity q) ≤ 4.62 * 0.01720209895 ^ 2 * len (p - q) := by
  have hl : |len p - len q| ≤ len (p - q) := by
    rw [len_eq, len_eq, len_eq, WithLp.toLp_sub]; exact abs_norm_sub_norm_le _ _
  have e : gravity p - gravity q = (-(0.01720209895 ^ 2 : ℝ)) • ((1 / len p ^ 3) • (p - q) + (1 / len p ^ 3 - 1 / len q ^ 3) • q) := by
    funext i
    simp [gravity]
    ring
  have sm : ∀ (c : ℝ) (w : Fin 3 → ℝ), len (c • w) = |c| * len w := fun c w => by
    rw [len_eq, len_eq, WithLp.toLp_smul, norm_smul, Real.norm_eq_abs]
  rw [e, sm, abs_neg, abs_of_pos (show (0 : ℝ) < 0.01720209895 ^ 2 by norm_num), mul_comm (4.62 : ℝ), mul_assoc]
  refine mul_le_mul_of_nonneg_left ((len_add _ _).trans ?_) (by norm_num)
  rw [sm, sm]
  have h0 := len_nonneg (p - q)
  generalize len (p - q) = D at *
  generalize len p = r at *
  generalize len q = t at *
  have r0 : 0 < r := by linarith
  have t0 : 0 < t := by linarith
  have a1 : |1 / r ^ 3| ≤ 1.0564 := by
    rw [abs_of_pos (by positivity), div_le_iff₀ (by positivity)]
    have := pow_le_pow_left₀ (by norm_num) hp 3
    norm_num at this ⊢
    linarith
  have a2 : |1 / r ^ 3 - 1 / t ^ 3| ≤ 3.4775 * D := by
    have : 1 / r ^ 3 - 1 / t ^ 3 = (t - r) * ((t ^ 2 + t * r + r ^ 2) / (r ^ 3 * t ^ 3)) := by field_simp; ring
    rw [this, abs_mul, abs_sub_comm, mul_comm]
    refine mul_le_mul ?_ hl (abs_nonneg _) (by norm_num)
    rw [abs_of_pos (by positivity), div_le_iff₀ (by positivity)]
    have b1 := pow_le_pow_left₀ (by norm_num) hp 3
    have b2 := pow_le_pow_left₀ (by norm_num) hq 3
    have b3 := mul_le_mul b1 b2 (by norm_num) (by positivity)
    have b4 := mul_le_mul hq' hp' r0.le (by norm_num)
    have b5 := pow_le_pow_left₀ r0.le hp' 2
    have b6 := pow_le_pow_left₀ t0.le hq' 2
    norm_num at b3 b4 b5 b6 ⊢
    linarith
  have c1 := mul_le_mul_of_nonneg_right a1 h0
  have c2 := mul_le_mul a2 hq' t0.le (by positivity)
  norm_num at c1 c2 ⊢
  linarith

/-- The change of the velocity between two dates. -/
theorem velocity_change {s s' : ℝ} (h : |s - 2451545| ≤ 36525) (h' : |s' - 2451545| ≤ 36525) :
    len ((earthAt s').heliocentric.v.toVec - (earthAt s).heliocentric.v.toVec - (s' - s) • gravity (earthAt s).heliocentric.p.toVec)
      ≤ (0.0186 + 0.081 * |s' - s|) * 0.01720209895 ^ 2 * |s' - s| := by
  obtain ⟨G, hG⟩ : ∃ G, G = gravity (earthAt s).heliocentric.p.toVec := ⟨_, rfl⟩
  rw [← hG]
  set w := (earthAt s').heliocentric.v.toVec - (earthAt s).heliocentric.v.toVec - (s' - s) • G with hw
  rcases (len_nonneg w).eq_or_lt with h0 | h0
  · rw [← h0]; positivity
  have mv := (convex_uIcc s s').norm_image_sub_le_of_norm_hasDerivWithin_le
    (f := fun u => w 0 * ((earthAt u).heliocentric.v.x - u * G 0) + w 1 * ((earthAt u).heliocentric.v.y - u * G 1)
      + w 2 * ((earthAt u).heliocentric.v.z - u * G 2))
    (f' := fun u => w 0 * ((earthAcc u).x - 1 * G 0) + w 1 * ((earthAcc u).y - 1 * G 1) + w 2 * ((earthAcc u).z - 1 * G 2))
    (C := len w * ((0.0186 + 0.081 * |s' - s|) * 0.01720209895 ^ 2))
    (fun u _ => by
      obtain ⟨k0, k1, k2⟩ := earthAcc_deriv u
      have i := hasDerivAt_id u
      exact ((((k0.sub (i.mul_const (G 0))).const_mul (w 0)).add ((k1.sub (i.mul_const (G 1))).const_mul (w 1))).add
        ((k2.sub (i.mul_const (G 2))).const_mul (w 2))).hasDerivWithinAt)
    (fun u hu => by
      have hu' : |u - 2451545| ≤ 36525 := by
        rw [abs_le] at h h' ⊢
        rw [Set.mem_uIcc] at hu
        rcases hu with hu | hu <;> constructor <;> linarith [h.1, h.2, h'.1, h'.2, hu.1, hu.2]
      have hus : |u - s| ≤ |s' - s| := Set.abs_sub_left_of_mem_uIcc hu
      have g1 := earthAcc_newton hu'
      obtain ⟨l1, l2⟩ := helio_len h
      obtain ⟨l3, l4⟩ := helio_len hu'
      have g2 := gravity_lip (p := (earthAt u).heliocentric.p.toVec) (q := (earthAt s).heliocentric.p.toVec)
        (by linarith) (by linarith) (by linarith) (by linarith)
      have g3 := earth_lip hu' h
      have g4 := len_add ((earthAcc u).toVec - gravity (earthAt u).heliocentric.p.toVec)
        (gravity (earthAt u).heliocentric.p.toVec - gravity (earthAt s).heliocentric.p.toVec)
      rw [sub_add_sub_cancel, ← hG] at g4
      rw [Real.norm_eq_abs]
      refine (dot_le w ((earthAcc u).toVec - G)).trans' (le_of_eq ?_) |>.trans (mul_le_mul_of_nonneg_left ?_ h0.le)
      · simp [Vec3.toVec]
      · refine g4.trans ?_
        rw [← hG] at g2
        have e0 := abs_nonneg (s' - s)
        clear * - g1 g2 g3 hus e0
        generalize len ((earthAcc u).toVec - gravity (earthAt u).heliocentric.p.toVec) = A at *
        generalize len (gravity (earthAt u).heliocentric.p.toVec - G) = B at *
        generalize len ((earthAt u).heliocentric.p.toVec - (earthAt s).heliocentric.p.toVec) = C at *
        generalize |u - s| = D at *
        generalize |s' - s| = E at *
        norm_num at g1 g2 g3 ⊢
        linarith)
    (x := s) (y := s') Set.left_mem_uIcc Set.right_mem_uIcc
  rw [Real.norm_eq_abs, Real.norm_eq_abs] at mv
  have e : w 0 * ((earthAt s').heliocentric.v.x - s' * G 0) + w 1 * ((earthAt s').heliocentric.v.y - s' * G 1)
      + w 2 * ((earthAt s').heliocentric.v.z - s' * G 2) -
      (w 0 * ((earthAt s).heliocentric.v.x - s * G 0) + w 1 * ((earthAt s).heliocentric.v.y - s * G 1)
      + w 2 * ((earthAt s).heliocentric.v.z - s * G 2)) = len w ^ 2 := by
    rw [len_sq]
    have e0 : w 0 = (earthAt s').heliocentric.v.x - (earthAt s).heliocentric.v.x - (s' - s) * G 0 := rfl
    have e1 : w 1 = (earthAt s').heliocentric.v.y - (earthAt s).heliocentric.v.y - (s' - s) * G 1 := rfl
    have e2 : w 2 = (earthAt s').heliocentric.v.z - (earthAt s).heliocentric.v.z - (s' - s) * G 2 := rfl
    rw [e0, e1, e2]; ring
  rw [e, abs_of_nonneg (sq_nonneg _)] at mv
  have : len w * len w ≤ len w * ((0.0186 + 0.081 * |s' - s|) * 0.01720209895 ^ 2 * |s' - s|) := by
    rw [← mul_assoc, ← pow_two]; exact mv
  exact le_of_mul_le_mul_left this h0

theorem VecNear.value {v : Vec3 F64} {w : Vec3 ℝ} {e c : ℝ} (h : VecNear v w e) (hc : 3 * e ^ 2 ≤ c ^ 2) (c0 : 0 ≤ c) :
    ∃ V, ValueOf v V ∧ len (V - w.toVec) ≤ c := by
  obtain ⟨a, ia, ha⟩ := h.1.value
  obtain ⟨b, ib, hb⟩ := h.2.1.value
  obtain ⟨d, id, hd⟩ := h.2.2.value
  refine ⟨![a, b, d], ⟨ia, ib, id⟩, len_le_of (e := e) (fun i => ?_) hc c0⟩
  fin_cases i
  exacts [ha, hb, hd]

/-- **C117.** In binary64: from the velocities computed for two dates of the same century, ten seconds or more apart, and the position
computed for the first: the change of velocity per day is the attraction of the Sun at that position, up to `1.9 + 9 d` per cent of the
attraction at unit distance, `d` being the number of days between the dates. -/
theorem C117_newton_f64 [Libm F64] (hL : LibmAcc) (x y x' y' : F64) (a b a' b' : ℚ) (hx : Is x a) (hy : Is y b) (hx' : Is x' a')
    (hy' : Is y' b') (ha : |a| ≤ 4000000) (ha' : |a'| ≤ 4000000) (h : |a + b - 2451545| ≤ 36525)
    (h' : |a' + b' - 2451545| ≤ 36525) (d : ℝ) (hd : d = (a' + b' : ℝ) - (a + b)) (hd' : 1 / 10000 ≤ |d|) :
    ∃ (e e' : EarthPosVel F64) (p v v' : Fin 3 → ℝ), EarthPosVel.fromTDB (x, y) = .ok e ∧ EarthPosVel.fromTDB (x', y') = .ok e' ∧
      ValueOf e.heliocentric.p p ∧ ValueOf e.heliocentric.v v ∧ ValueOf e'.heliocentric.v v' ∧
      len ((1 / d) • (v' - v) - gravity p) ≤ (0.019 + 0.09 * |d|) * 0.01720209895 ^ 2 := by
  obtain ⟨e, r, he, hr, np, nv, -⟩ := C68_ephemeris_f64 hL x y a b hx hy ha h
  obtain ⟨e', r', he', hr', -, nv', -⟩ := C68_ephemeris_f64 hL x' y' a' b' hx' hy' ha' h'
  rw [fromTDB_real] at hr hr'
  obtain rfl := Except.ok.inj hr
  obtain rfl := Except.ok.inj hr'
  have hR : |(a : ℝ) + b - 2451545| ≤ 36525 := by exact_mod_cast h
  have hR' : |(a' : ℝ) + b' - 2451545| ≤ 36525 := by exact_mod_cast h'
  obtain ⟨p, vp, lp⟩ := np.value (c := 6 / 10 ^ 11) (by norm_num) (by norm_num)
  obtain ⟨v, vv, lv⟩ := nv.value (c := 1.1 / 10 ^ 12) (by norm_num) (by norm_num)
  obtain ⟨v', vv', lv'⟩ := nv'.value (c := 1.1 / 10 ^ 12) (by norm_num) (by norm_num)
  refine ⟨e, e', p, v, v', he, he', vp, vv, vv', ?_⟩
  have V := velocity_change hR hR'
  simp only at lp lv lv' V
  obtain ⟨l1, l2⟩ := helio_len hR
  generalize (earthAt (a + b)).heliocentric.p.toVec = P at *
  generalize (earthAt (a + b)).heliocentric.v.toVec = U at *
  generalize (earthAt (a' + b')).heliocentric.v.toVec = U' at *
  rw [← hd] at V
  have hl : |len p - len P| ≤ len (p - P) := by
    rw [len_eq, len_eq, len_eq, WithLp.toLp_sub]; exact abs_norm_sub_norm_le _ _
  have sm : ∀ (c : ℝ) (w : Fin 3 → ℝ), len (c • w) = |c| * len w := fun c w => by
    rw [len_eq, len_eq, WithLp.toLp_smul, norm_smul, Real.norm_eq_abs]
  rw [abs_le] at hl
  have lp1 : len (p - P) ≤ 0.00001 := lp.trans (by norm_num)
  have g := gravity_lip (p := P) (q := p) (by linarith) (by linarith [hl.1]) (by linarith) (by linarith [hl.2])
  have gs : len (P - p) = len (p - P) := by rw [← neg_sub, ← neg_one_smul ℝ, sm]; norm_num
  rw [gs] at g
  have d0 : 0 < |d| := by linarith
  have d1 : d ≠ 0 := abs_pos.mp d0
  have key : (1 / d) • (v' - v) - gravity p = (1 / d) • (((v' - U') - (v - U)) + (U' - U - d • gravity P)) + (gravity P - gravity p) := by
    funext i
    simp only [Pi.sub_apply, Pi.smul_apply, Pi.add_apply, smul_eq_mul]
    field_simp
    ring
  rw [key]
  refine (len_add _ _).trans ((add_le_add (le_of_eq (sm _ _)) g).trans ?_)
  have w := (len_add ((v' - U') - (v - U)) (U' - U - d • gravity P)).trans (add_le_add ((len_sub _ _).trans (add_le_add lv' lv)) V)
  have w2 : |1 / d| * len (((v' - U') - (v - U)) + (U' - U - d • gravity P)) ≤
      2.2 / 10 ^ 8 + (0.0186 + 0.081 * |d|) * 0.01720209895 ^ 2 := by
    rw [abs_div, abs_one, one_div, inv_mul_le_iff₀ d0]
    refine w.trans ?_
    norm_num at hd' ⊢
    linarith
  refine (add_le_add w2 (mul_le_mul_of_nonneg_left lp (by norm_num))).trans ?_
  norm_num
  linarith

/-- The hypotheses hold for J2000.0 and a noon one day later. -/
example : ∃ L : Libm F64, @LibmAcc L ∧ ∃ x y x' y' : F64, Is x 2451545 ∧ Is y 0 ∧ Is x' 2451545 ∧ Is y' 1 ∧
    (1 / 10000 : ℝ) ≤ |((2451545 : ℚ) + (1 : ℚ) : ℝ) - ((2451545 : ℚ) + (0 : ℚ))| := by
  have i : ∀ n : ℤ, |n| ≤ 2 ^ 53 → Is (lit n : F64) n := fun n h => Is.lit_int n h
  have i0 := i 0 (by norm_num)
  have i1 := i 1 (by norm_num)
  have i2 := i 2451545 (by norm_num)
  push_cast at i0 i1 i2
  exact ⟨goodLibm, exists_libmAcc, _, _, _, _, i2, i0, i2, i1, by norm_num [abs_le]⟩

end Verif
