import Verif.Props.Newton

/-!
# C120: the motion of the Sun about the centre of mass
-/

namespace Verif
open Arith F64 Epv

/-- Second derivative of `sunEcl`. -/
noncomputable def sunEcl'' (k : Fin 3) (t : ℝ) : ℝ :=
  ser0'' (EpvRef.S0 k) t + ((2 * ser0' (EpvRef.S1 k) t + t * ser0'' (EpvRef.S1 k) t)
    + (2 * ser0 (EpvRef.S2 k) t + 4 * t * ser0' (EpvRef.S2 k) t + t ^ 2 * ser0'' (EpvRef.S2 k) t))

theorem hasDerivAt_sunEcl' (k : Fin 3) (t : ℝ) : HasDerivAt (sunEcl' k) (sunEcl'' k t) t := by
  have i := hasDerivAt_id t
  have h := ((hasDerivAt_ser0' (EpvRef.S0 k) t).add
      ((hasDerivAt_ser0 (EpvRef.S1 k) t).add (i.mul (hasDerivAt_ser0' (EpvRef.S1 k) t)))).add
    (((i.const_mul 2).mul (hasDerivAt_ser0 (EpvRef.S2 k) t)).add ((i.pow 2).mul (hasDerivAt_ser0' (EpvRef.S2 k) t)))
  refine HasDerivAt.congr_deriv (f := sunEcl' k) h ?_
  unfold sunEcl''
  simp only [Pi.pow_apply, id]
  push_cast
  ring

/-- Terms with powers of `t`, first and second derivatives. -/
theorem sun_secular (k : Fin 3) {t : ℝ} (ht : |t| ≤ 100) :
    |(ser0 (EpvRef.S1 k) t + t * ser0' (EpvRef.S1 k) t) + (2 * t * ser0 (EpvRef.S2 k) t + t ^ 2 * ser0' (EpvRef.S2 k) t)| ≤ 0.000003 ∧
    |(2 * ser0' (EpvRef.S1 k) t + t * ser0'' (EpvRef.S1 k) t)
      + (2 * ser0 (EpvRef.S2 k) t + 4 * t * ser0' (EpvRef.S2 k) t + t ^ 2 * ser0'' (EpvRef.S2 k) t)| ≤ 0.000003 := by
  have a0 := (ser0_wt (EpvRef.S1 k) t).trans (bd_S1 k).b0
  have a1 := (ser0'_le (EpvRef.S1 k) t).trans (bd_S1 k).b1
  have a2 := (ser0''_le (EpvRef.S1 k) t).trans (bd_S1 k).b2
  have a3 := (ser0_wt (EpvRef.S2 k) t).trans (bd_S2 k).b0
  have a4 := (ser0'_le (EpvRef.S2 k) t).trans (bd_S2 k).b1
  have a5 := (ser0''_le (EpvRef.S2 k) t).trans (bd_S2 k).b2
  have m : ∀ {c x C X : ℝ}, |c| ≤ C → |x| ≤ X → |c * x| ≤ C * X := fun h1 h2 => by
    rw [abs_mul]; exact mul_le_mul h1 h2 (abs_nonneg _) ((abs_nonneg _).trans h1)
  have t2 : |t ^ 2| ≤ 10000 := by rw [abs_pow]; nlinarith [abs_nonneg t]
  have t1 : |2 * t| ≤ 200 := by rw [abs_mul, abs_two]; linarith
  have t4 : |4 * t| ≤ 400 := by rw [abs_mul, abs_of_pos (show (0 : ℝ) < 4 by norm_num)]; linarith
  have tw : |(2 : ℝ)| ≤ 2 := by rw [abs_two]
  constructor
  · refine (abs_add_le _ _).trans ((add_le_add ((abs_add_le _ _).trans (add_le_add a0 (m ht a1)))
      ((abs_add_le _ _).trans (add_le_add (m t1 a3) (m t2 a4)))).trans ?_)
    norm_num
  · refine (abs_add_le _ _).trans ((add_le_add ((abs_add_le _ _).trans (add_le_add (m tw a1) (m ht a2)))
      ((abs_add_le _ _).trans (add_le_add ((abs_add_le _ _).trans (add_le_add (m tw a3) (m t4 a4))) (m t2 a5)))).trans ?_)
    norm_num

theorem sun_rates (t : ℝ) (ht : |t| ≤ 100) :
    (|sunEcl' 0 t| ≤ 0.003603 ∧ |sunEcl' 1 t| ≤ 0.003603 ∧ |sunEcl' 2 t| ≤ 0.000099) ∧
    (|sunEcl'' 0 t| ≤ 0.002103 ∧ |sunEcl'' 1 t| ≤ 0.002103 ∧ |sunEcl'' 2 t| ≤ 0.000065) := by
  have hZ := Bd.of_chk (show chk EpvRef.S0Z 213 110000000000000 950000000000 610000000000 = true by decide +kernel)
  have r : ∀ {k : Fin 3} {c : ℝ}, ((EpvRef.S0 k).map (wt 1)).sum ≤ c → |sunEcl' k t| ≤ c + 0.000003 := fun {k c} h => by
    show |_ + _ + _| ≤ _
    rw [add_assoc]
    exact (abs_add_le _ _).trans (add_le_add ((ser0'_le _ t).trans h) (sun_secular k ht).1)
  have r' : ∀ {k : Fin 3} {c : ℝ}, ((EpvRef.S0 k).map (wt 2)).sum ≤ c → |sunEcl'' k t| ≤ c + 0.000003 := fun {k c} h =>
    (abs_add_le _ _).trans (add_le_add ((ser0''_le _ t).trans h) (sun_secular k ht).2)
  refine ⟨⟨(r (bd_S0 0).b1).trans (by norm_num), (r (bd_S0 1).b1).trans (by norm_num), (r (k := 2) hZ.b1).trans (by norm_num)⟩,
    (r' (bd_S0 0).b2).trans (by norm_num), (r' (bd_S0 1).b2).trans (by norm_num), (r' (k := 2) hZ.b2).trans (by norm_num)⟩

/-- A vector turned to the equator with its components bounded. -/
theorem toICRF_small {x y z a b c m : ℝ} (hx : |x| ≤ a) (hy : |y| ≤ b) (hz : |z| ≤ c) (hm : 0 ≤ m)
    (h : (1 + 1e-11) * (a ^ 2 + b ^ 2 + c ^ 2) ≤ m ^ 2) : len (toICRF ⟨x, y, z⟩).toVec ≤ m := by
  have n := (abs_le.mp (toICRF_norm ⟨x, y, z⟩)).2
  have c1 := sq_le_sq' (abs_le.mp hx).1 (abs_le.mp hx).2
  have c2 := sq_le_sq' (abs_le.mp hy).1 (abs_le.mp hy).2
  have c3 := sq_le_sq' (abs_le.mp hz).1 (abs_le.mp hz).2
  refine Real.sqrt_le_iff.mpr ⟨hm, le_trans ?_ h⟩
  show (toICRF ⟨x, y, z⟩).x ^ 2 + (toICRF ⟨x, y, z⟩).y ^ 2 + (toICRF ⟨x, y, z⟩).z ^ 2 ≤ _
  simp only at n
  norm_num at n ⊢
  linarith

theorem toICRF_sub (u v : Vec3 ℝ) : (toICRF u).toVec - (toICRF v).toVec = (toICRF ⟨u.x - v.x, u.y - v.y, u.z - v.z⟩).toVec := by
  funext i
  simp only [toICRF_real]
  fin_cases i
  all_goals simp [Vec3.toVec]
  all_goals ring

/-- Acceleration of the Sun in the frame of the results. -/
noncomputable def sunAcc (s : ℝ) : Vec3 ℝ :=
  toICRF ⟨sunEcl'' 0 (years s) / 365.25 / 365.25, sunEcl'' 1 (years s) / 365.25 / 365.25, sunEcl'' 2 (years s) / 365.25 / 365.25⟩

theorem sunBary {s : ℝ} (h : |s - 2451545| ≤ 36525) :
    len ((earthAt s).barycentric.p.toVec - (earthAt s).heliocentric.p.toVec) ≤ 0.01521 ∧
    len ((earthAt s).barycentric.v.toVec - (earthAt s).heliocentric.v.toVec) ≤ 1.396e-5 ∧
    len (sunAcc s).toVec ≤ 7.6e-5 * 0.01720209895 ^ 2 := by
  have ht : |years s| ≤ 100 := by
    unfold years
    rw [abs_div, abs_of_pos (show (0 : ℝ) < 365.25 by norm_num), div_le_iff₀ (by norm_num)]
    norm_num at h ⊢; exact h
  obtain ⟨p0, p1, p2⟩ := sun_le _ ht
  obtain ⟨⟨v0, v1, v2⟩, a0, a1, a2⟩ := sun_rates _ ht
  have dv : ∀ {x c : ℝ}, |x| ≤ c → |x / 365.25| ≤ c / 365.25 := fun h => by
    rw [abs_div, abs_of_pos (show (0 : ℝ) < 365.25 by norm_num)]; exact div_le_div_of_nonneg_right h (by norm_num)
  refine ⟨?_, ?_, ?_⟩
  · show len ((toICRF _).toVec - (toICRF _).toVec) ≤ _
    rw [toICRF_sub]
    simp only [add_sub_cancel_left]
    exact toICRF_small p0 p1 p2 (by norm_num) (by norm_num)
  · show len ((toICRF _).toVec - (toICRF _).toVec) ≤ _
    rw [toICRF_sub]
    simp only [← sub_div, add_sub_cancel_left]
    exact toICRF_small (dv v0) (dv v1) (dv v2) (by norm_num) (by norm_num)
  · exact toICRF_small (dv (dv a0)) (dv (dv a1)) (dv (dv a2)) (by norm_num) (by norm_num)

theorem sunAcc_deriv (s : ℝ) : VecDeriv (fun u => toICRF ⟨sunEcl' 0 (years u) / 365.25, sunEcl' 1 (years u) / 365.25,
    sunEcl' 2 (years u) / 365.25⟩) (sunAcc s) s :=
  VecDeriv.toICRF ⟨deriv_comp ((hasDerivAt_sunEcl' 0 _).div_const _), deriv_comp ((hasDerivAt_sunEcl' 1 _).div_const _),
    deriv_comp ((hasDerivAt_sunEcl' 2 _).div_const _)⟩

theorem sunVel (u : ℝ) : (earthAt u).barycentric.v.toVec - (earthAt u).heliocentric.v.toVec =
    (toICRF ⟨sunEcl' 0 (years u) / 365.25, sunEcl' 1 (years u) / 365.25, sunEcl' 2 (years u) / 365.25⟩).toVec := by
  show (toICRF _).toVec - (toICRF _).toVec = _
  rw [toICRF_sub]
  simp only [← sub_div, add_sub_cancel_left]

theorem sunVel_deriv (s : ℝ) (i : Fin 3) :
    HasDerivAt (fun u => ((earthAt u).barycentric.v.toVec - (earthAt u).heliocentric.v.toVec) i) ((sunAcc s).toVec i) s := by
  simp only [sunVel]
  obtain ⟨h0, h1, h2⟩ := sunAcc_deriv s
  fin_cases i
  exacts [h0, h1, h2]

/-- **C120.** For every date within a century of J2000.0 the Sun (barycentric less heliocentric position of the Earth) is within 0.0153 au of
the centre of mass, moves at most `1.4e-5` au per day, and is accelerated by at most `8e-5` of the attraction it exerts at 1 au; the
barycentric acceleration of the Earth is the attraction of the Sun too. -/
theorem C120_sun (s : ℝ) (h : |s - 2451545| ≤ 36525) (split : ℝ → ℝ × ℝ) (hs : ∀ u, (split u).1 + (split u).2 = u)
    (F : ℝ → EarthPosVel ℝ) (hF : ∀ u, EarthPosVel.fromTDB (split u) = .ok (F u)) :
    len ((F s).barycentric.p.toVec - (F s).heliocentric.p.toVec) ≤ 0.0153 ∧
    len ((F s).barycentric.v.toVec - (F s).heliocentric.v.toVec) ≤ 1.4e-5 ∧
    (∃ A : Fin 3 → ℝ, (∀ i, HasDerivAt (fun u => ((F u).barycentric.v.toVec - (F u).heliocentric.v.toVec) i) (A i) s) ∧
      len A ≤ 8e-5 * 0.01720209895 ^ 2) ∧
    ∃ B : Fin 3 → ℝ, (∀ i, HasDerivAt (fun u => (F u).barycentric.v.toVec i) (B i) s) ∧
      len (B - gravity (F s).heliocentric.p.toVec) ≤ 0.019 * 0.01720209895 ^ 2 := by
  have e : F = earthAt := by
    funext u
    have := hF u
    rw [fromTDB_real, hs] at this
    exact (Except.ok.inj this).symm
  subst e
  obtain ⟨h1, h2, h3⟩ := sunBary h
  refine ⟨h1.trans (by norm_num), h2.trans (by norm_num), ⟨_, sunVel_deriv s, h3.trans (by norm_num)⟩,
    (earthAcc s).toVec + (sunAcc s).toVec, fun i => ?_, ?_⟩
  · have d : HasDerivAt (fun u => (earthAt u).heliocentric.v.toVec i) ((earthAcc s).toVec i) s := by
      obtain ⟨h0, h1, h2⟩ := earthAcc_deriv s
      fin_cases i
      exacts [h0, h1, h2]
    refine (d.add (sunVel_deriv s i)).congr_of_eventuallyEq (Filter.Eventually.of_forall fun u => ?_)
    simp
  · rw [add_sub_right_comm]
    refine (len_add _ _).trans ((add_le_add (earthAcc_newton h) h3).trans ?_)
    norm_num

/-- The change of the velocity of the Sun. -/
theorem sunVel_change {s s' : ℝ} (h : |s - 2451545| ≤ 36525) (h' : |s' - 2451545| ≤ 36525) :
    len (((earthAt s').barycentric.v.toVec - (earthAt s').heliocentric.v.toVec) -
      ((earthAt s).barycentric.v.toVec - (earthAt s).heliocentric.v.toVec)) ≤ 7.6e-5 * 0.01720209895 ^ 2 * |s' - s| := by
  obtain ⟨V, hV⟩ : ∃ V : ℝ → Fin 3 → ℝ, V = fun u => (earthAt u).barycentric.v.toVec - (earthAt u).heliocentric.v.toVec := ⟨_, rfl⟩
  have e : ∀ u, (earthAt u).barycentric.v.toVec - (earthAt u).heliocentric.v.toVec = V u := fun u => by rw [hV]
  have hd : ∀ u i, HasDerivAt (fun u => V u i) ((sunAcc u).toVec i) u := fun u i => by rw [hV]; exact sunVel_deriv u i
  rw [e, e]
  obtain ⟨w, hw⟩ : ∃ w, w = V s' - V s := ⟨_, rfl⟩
  rw [← hw]
  rcases (len_nonneg w).eq_or_lt with h0 | h0
  · rw [← h0]; positivity
  have mv := (convex_Icc (2451545 - 36525 : ℝ) (2451545 + 36525)).norm_image_sub_le_of_norm_hasDerivWithin_le
    (f := fun u => w 0 * V u 0 + w 1 * V u 1 + w 2 * V u 2)
    (f' := fun u => w 0 * (sunAcc u).toVec 0 + w 1 * (sunAcc u).toVec 1 + w 2 * (sunAcc u).toVec 2)
    (C := len w * (7.6e-5 * 0.01720209895 ^ 2))
    (fun u _ => ((((hd u 0).const_mul (w 0)).add ((hd u 1).const_mul (w 1))).add ((hd u 2).const_mul (w 2))).hasDerivWithinAt)
    (fun u hu => by
      have hsp := (sunBary (s := u) (by rw [abs_le]; constructor <;> linarith [hu.1, hu.2])).2.2
      rw [Real.norm_eq_abs]
      exact (dot_le w (sunAcc u).toVec).trans (mul_le_mul_of_nonneg_left hsp h0.le))
    (x := s) (y := s') (by rw [abs_le] at h; constructor <;> linarith [h.1, h.2]) (by rw [abs_le] at h'; constructor <;> linarith [h'.1, h'.2])
  rw [Real.norm_eq_abs, Real.norm_eq_abs] at mv
  have e2 : w 0 * V s' 0 + w 1 * V s' 1 + w 2 * V s' 2 - (w 0 * V s 0 + w 1 * V s 1 + w 2 * V s 2) = len w ^ 2 := by
    rw [len_sq, hw]
    simp only [Pi.sub_apply]
    ring
  rw [e2, abs_of_nonneg (sq_nonneg _)] at mv
  have : len w * len w ≤ len w * (7.6e-5 * 0.01720209895 ^ 2 * |s' - s|) := by rw [← mul_assoc, ← pow_two]; exact mv
  exact le_of_mul_le_mul_left this h0

/-- **C120.** In binary64: place and speed of the Sun, and the change of its velocity between two dates `d` days apart. -/
theorem C120_sun_f64 [Libm F64] (hL : LibmAcc) (x y x' y' : F64) (a b a' b' : ℚ) (hx : Is x a) (hy : Is y b) (hx' : Is x' a')
    (hy' : Is y' b') (ha : |a| ≤ 4000000) (ha' : |a'| ≤ 4000000) (h : |a + b - 2451545| ≤ 36525)
    (h' : |a' + b' - 2451545| ≤ 36525) (d : ℝ) (hd : d = (a' + b' : ℝ) - (a + b)) :
    ∃ (e e' : EarthPosVel F64) (p q v w v' w' : Fin 3 → ℝ), EarthPosVel.fromTDB (x, y) = .ok e ∧ EarthPosVel.fromTDB (x', y') = .ok e' ∧
      ValueOf e.heliocentric.p p ∧ ValueOf e.barycentric.p q ∧ ValueOf e.heliocentric.v v ∧ ValueOf e.barycentric.v w ∧
      ValueOf e'.heliocentric.v v' ∧ ValueOf e'.barycentric.v w' ∧
      len (q - p) ≤ 0.0153 ∧ len (w - v) ≤ 1.4e-5 ∧ len ((w' - v') - (w - v)) ≤ 8e-5 * 0.01720209895 ^ 2 * |d| + 5e-12 := by
  obtain ⟨e, r, he, hr, np, nv, nq, nw⟩ := C68_ephemeris_f64 hL x y a b hx hy ha h
  obtain ⟨e', r', he', hr', -, nv', -, nw'⟩ := C68_ephemeris_f64 hL x' y' a' b' hx' hy' ha' h'
  rw [fromTDB_real] at hr hr'
  obtain rfl := Except.ok.inj hr
  obtain rfl := Except.ok.inj hr'
  have hR : |(a : ℝ) + b - 2451545| ≤ 36525 := by exact_mod_cast h
  have hR' : |(a' : ℝ) + b' - 2451545| ≤ 36525 := by exact_mod_cast h'
  obtain ⟨p, vp, lp⟩ := np.value (c := 6 / 10 ^ 11) (by norm_num) (by norm_num)
  obtain ⟨q, vq, lq⟩ := nq.value (c := 6 / 10 ^ 11) (by norm_num) (by norm_num)
  obtain ⟨v, vv, lv⟩ := nv.value (c := 1.1 / 10 ^ 12) (by norm_num) (by norm_num)
  obtain ⟨w, vw, lw⟩ := nw.value (c := 1.1 / 10 ^ 12) (by norm_num) (by norm_num)
  obtain ⟨v', vv', lv'⟩ := nv'.value (c := 1.1 / 10 ^ 12) (by norm_num) (by norm_num)
  obtain ⟨w', vw', lw'⟩ := nw'.value (c := 1.1 / 10 ^ 12) (by norm_num) (by norm_num)
  obtain ⟨h1, h2, -⟩ := sunBary hR
  have h3 := sunVel_change hR hR'
  rw [← hd] at h3
  refine ⟨e, e', p, q, v, w, v', w', he, he', vp, vq, vv, vw, vv', vw', ?_, ?_, ?_⟩
  · rw [show q - p = (q - (earthAt (a + b)).barycentric.p.toVec) - (p - (earthAt (a + b)).heliocentric.p.toVec) +
      ((earthAt (a + b)).barycentric.p.toVec - (earthAt (a + b)).heliocentric.p.toVec) by abel]
    exact (len_add _ _).trans ((add_le_add ((len_sub _ _).trans (add_le_add lq lp)) h1).trans (by norm_num))
  · rw [show w - v = (w - (earthAt (a + b)).barycentric.v.toVec) - (v - (earthAt (a + b)).heliocentric.v.toVec) +
      ((earthAt (a + b)).barycentric.v.toVec - (earthAt (a + b)).heliocentric.v.toVec) by abel]
    exact (len_add _ _).trans ((add_le_add ((len_sub _ _).trans (add_le_add lw lv)) h2).trans (by norm_num))
  · rw [show (w' - v') - (w - v) = (((w' - (earthAt (a' + b')).barycentric.v.toVec) - (v' - (earthAt (a' + b')).heliocentric.v.toVec)) -
      ((w - (earthAt (a + b)).barycentric.v.toVec) - (v - (earthAt (a + b)).heliocentric.v.toVec))) +
      (((earthAt (a' + b')).barycentric.v.toVec - (earthAt (a' + b')).heliocentric.v.toVec) -
      ((earthAt (a + b)).barycentric.v.toVec - (earthAt (a + b)).heliocentric.v.toVec)) by abel]
    refine (len_add _ _).trans ((add_le_add ((len_sub _ _).trans (add_le_add ((len_sub _ _).trans (add_le_add lw' lv'))
      ((len_sub _ _).trans (add_le_add lw lv)))) h3).trans ?_)
    have := abs_nonneg d
    norm_num
    linarith

/-- The date of the reference value in the test suite. -/
example : |(2453412 : ℝ) + 0.52501161 - 2451545| ≤ 36525 := by norm_num [abs_le]

end Verif
