import Verif.Props.Year

/-!
# C121: the energy of the Earth
-/

namespace Verif
open Arith F64

set_option maxHeartbeats 1000000 in
/-- Square of the speed in the ecliptic frame, for a distance `ρ` that may differ slightly. -/
theorem helio_energy (t : ℝ) (ht : |t| ≤ 100) (ρ : ℝ) (hρ : 0 < ρ)
    (hd : |ρ ^ 2 - (helioEcl 0 t ^ 2 + helioEcl 1 t ^ 2 + helioEcl 2 t ^ 2)| ≤ 1e-9) :
    |helioEcl' 0 t ^ 2 + helioEcl' 1 t ^ 2 + helioEcl' 2 t ^ 2 - gaussYear * (2 / ρ - 1)| ≤ 0.0088 * gaussYear := by
  obtain ⟨C, S, a, b, q, w, R, hC, h1, h2, hT, hR, ha, hb, hab, hq, hw, hRb⟩ := helio_motion t ht
  have hz := helioZ t ht
  have hz' := helioZ' t ht
  have e : helioEcl' 0 t ^ 2 + helioEcl' 1 t ^ 2 = (6.283075850446 * (1 + b) + w) ^ 2 + R ^ 2 := by
    rw [← hT, ← hR]; linear_combination (-(helioEcl' 0 t ^ 2 + helioEcl' 1 t ^ 2)) * hC
  have e1 : helioEcl 0 t ^ 2 + helioEcl 1 t ^ 2 = (1 + a) ^ 2 + q ^ 2 := by
    rw [← h1, ← h2]; linear_combination (-(helioEcl 0 t ^ 2 + helioEcl 1 t ^ 2)) * hC
  rw [e]
  rw [e1] at hd
  generalize helioEcl 2 t = z at *
  generalize helioEcl' 2 t = z' at *
  clear e e1 h1 h2 hT hR
  have hq2 := sq_le_sq' (abs_le.mp hq).1 (abs_le.mp hq).2
  have hz2 := sq_le_sq' (abs_le.mp hz).1 (abs_le.mp hz).2
  have hz3 := sq_le_sq' (abs_le.mp hz').1 (abs_le.mp hz').2
  have hR2 := sq_le_sq' (abs_le.mp hRb).1 (abs_le.mp hRb).2
  obtain ⟨d1, d2⟩ := abs_le.mp hd
  obtain ⟨a1, a2⟩ := abs_le.mp ha
  obtain ⟨d, hdd⟩ : ∃ d, d = ρ - (1 + a) := ⟨_, rfl⟩
  have r1 : -1e-8 ≤ d := by
    have : (1 + a - 1e-8) ^ 2 ≤ ρ ^ 2 := by
      have := sq_nonneg q
      have := sq_nonneg z
      norm_num at *
      linarith
    have := abs_le_of_sq_le_sq' this hρ.le
    linarith [this.2]
  have r2 : d ≤ 0.0007 := by
    have : ρ ^ 2 ≤ (1 + a + 0.0007) ^ 2 := by
      norm_num at *
      linarith
    have := abs_le_of_sq_le_sq' this (by linarith)
    linarith [this.2]
  have hy : |a + d| ≤ 0.0185 := by rw [abs_le]; constructor <;> norm_num at * <;> linarith
  have e2 : ρ = 1 + (a + d) := by rw [hdd]; ring
  -- the inverse distance
  obtain ⟨κ, hκ⟩ : ∃ κ, κ = 1 / ρ - (1 - (a + d)) := ⟨_, rfl⟩
  have y2 := sq_le_sq' (abs_le.mp hy).1 (abs_le.mp hy).2
  have k0 : κ * ρ = (a + d) ^ 2 := by rw [hκ, sub_mul, one_div, inv_mul_cancel₀ hρ.ne', e2]; ring
  have ρ1 : 0.98 ≤ ρ := by rw [e2]; have := (abs_le.mp hy).1; norm_num at *; linarith
  have k1 : 0 ≤ κ := by
    by_contra hn
    have : κ * ρ < 0 := mul_neg_of_neg_of_pos (not_le.mp hn) hρ
    rw [k0] at this
    linarith [sq_nonneg (a + d)]
  have k2 : κ ≤ 0.00035 := by
    have : κ * 0.98 ≤ κ * ρ := mul_le_mul_of_nonneg_left ρ1 k1
    rw [k0] at this
    norm_num at *
    linarith
  have e3 : 2 / ρ - 1 = 1 - 2 * (a + d) + 2 * κ := by rw [hκ]; ring
  rw [e3]
  have hG : gaussYear = 39.47692642137301285621265625 := by unfold gaussYear; norm_num
  rw [hG]
  -- products
  have b2 := sq_le_sq' (abs_le.mp hb).1 (abs_le.mp hb).2
  have w2 := sq_le_sq' (abs_le.mp hw).1 (abs_le.mp hw).2
  have m1 : |b * w| ≤ 0.016706 * 0.0115 := by rw [abs_mul]; exact mul_le_mul hb hw (abs_nonneg _) (by norm_num)
  have e4 : (6.283075850446 * (1 + b) + w) ^ 2 + R ^ 2 + z' ^ 2 - 39.47692642137301285621265625 * (1 - 2 * (a + d) + 2 * κ) =
      6.283075850446 ^ 2 * (1 + 2 * b + b ^ 2) + 2 * 6.283075850446 * w + 2 * 6.283075850446 * (b * w) + w ^ 2 + R ^ 2 + z' ^ 2
        - 39.47692642137301285621265625 * (1 - 2 * (a + d) + 2 * κ) := by ring
  rw [e4]
  have := sq_nonneg b
  have := sq_nonneg w
  have := sq_nonneg R
  have := sq_nonneg z'
  obtain ⟨g1, g2⟩ := abs_le.mp hab
  obtain ⟨g3, g4⟩ := abs_le.mp hw
  obtain ⟨g5, g6⟩ := abs_le.mp m1
  obtain ⟨g7, g8⟩ := abs_le.mp hb
  clear hd d1 d2 hκ k0 e2 e3 e4 hdd hC y2 hy ha hb hab hq hw hRb m1 hz hz' hG ρ1
  generalize b * w = bw at *
  generalize b ^ 2 = b' at *
  generalize w ^ 2 = w' at *
  generalize R ^ 2 = R' at *
  generalize z' ^ 2 = zz at *
  rw [abs_le]
  norm_num at *
  constructor <;> linarith

theorem earth_energy {s : ℝ} (h : |s - 2451545| ≤ 36525) :
    |len (earthAt s).heliocentric.v.toVec ^ 2 - 0.01720209895 ^ 2 * (2 / len (earthAt s).heliocentric.p.toVec - 1)| ≤
      0.00881 * 0.01720209895 ^ 2 := by
  have ht := years_le h
  have d2 := (helio_dist _ ht).2
  have s2 := (helio_speed _ ht).2
  have n := toICRF_norm ⟨helioEcl 0 (years s), helioEcl 1 (years s), helioEcl 2 (years s)⟩
  have m := toICRF_norm ⟨helioEcl' 0 (years s) / 365.25, helioEcl' 1 (years s) / 365.25, helioEcl' 2 (years s) / 365.25⟩
  obtain ⟨p, hp⟩ : ∃ p, p = (earthAt s).heliocentric.p.toVec := ⟨_, rfl⟩
  obtain ⟨v, hv⟩ : ∃ v, v = (earthAt s).heliocentric.v.toVec := ⟨_, rfl⟩
  have l1 := (helio_len h).1
  rw [← hp, ← hv]
  rw [← hp] at l1
  have lp : len p ^ 2 = (toICRF ⟨helioEcl 0 (years s), helioEcl 1 (years s), helioEcl 2 (years s)⟩).x ^ 2 +
      (toICRF ⟨helioEcl 0 (years s), helioEcl 1 (years s), helioEcl 2 (years s)⟩).y ^ 2 +
      (toICRF ⟨helioEcl 0 (years s), helioEcl 1 (years s), helioEcl 2 (years s)⟩).z ^ 2 := by rw [len_sq, hp]; rfl
  have lv : len v ^ 2 = (toICRF ⟨helioEcl' 0 (years s) / 365.25, helioEcl' 1 (years s) / 365.25, helioEcl' 2 (years s) / 365.25⟩).x ^ 2 +
      (toICRF ⟨helioEcl' 0 (years s) / 365.25, helioEcl' 1 (years s) / 365.25, helioEcl' 2 (years s) / 365.25⟩).y ^ 2 +
      (toICRF ⟨helioEcl' 0 (years s) / 365.25, helioEcl' 1 (years s) / 365.25, helioEcl' 2 (years s) / 365.25⟩).z ^ 2 := by
    rw [len_sq, hv]; rfl
  rw [← lp] at n
  rw [← lv] at m
  have c := helio_energy _ ht (len p) (by linarith) (n.trans (by norm_num at d2 ⊢; linarith))
  have hG : gaussYear = 39.47692642137301285621265625 := by unfold gaussYear; norm_num
  rw [hG] at c
  simp only [div_pow, ← add_div] at m
  clear n lp lv l1 hp hv
  generalize helioEcl' 0 (years s) ^ 2 + helioEcl' 1 (years s) ^ 2 + helioEcl' 2 (years s) ^ 2 = V at *
  generalize 2 / len p - 1 = Q at *
  generalize len v ^ 2 = L at *
  rw [abs_le] at c m ⊢
  norm_num at *
  constructor <;> linarith [c.1, c.2, m.1, m.2]

/-- **C121.** For every date within a century of J2000.0 the square of the speed `v` of the Earth and its distance `r` satisfy
`v² = k² (2/r - 1)`, up to 0.009 `k²`: the energy is that of an orbit of semi-major axis one astronomical unit. -/
theorem C121_energy (a b : ℝ) (h : |a + b - 2451545| ≤ 36525) (e : EarthPosVel ℝ) (he : EarthPosVel.fromTDB (a, b) = .ok e)
    (r v k : ℝ) (hr : r = len e.heliocentric.p.toVec) (hv : v = len e.heliocentric.v.toVec) (hk : k = 0.01720209895) :
    |v ^ 2 - k ^ 2 * (2 / r - 1)| ≤ 0.009 * k ^ 2 := by
  rw [fromTDB_real] at he
  obtain rfl := Except.ok.inj he
  rw [hr, hv, hk]
  exact (earth_energy h).trans (by norm_num)

/-- **C121.** The energy per mass does not change between two dates, up to 0.009 `k²`. -/
theorem C121_conserved (a b a' b' : ℝ) (h : |a + b - 2451545| ≤ 36525) (h' : |a' + b' - 2451545| ≤ 36525) (e e' : EarthPosVel ℝ)
    (he : EarthPosVel.fromTDB (a, b) = .ok e) (he' : EarthPosVel.fromTDB (a', b') = .ok e')
    (E : EarthPosVel ℝ → ℝ) (k : ℝ) (hk : k = 0.01720209895)
    (hE : ∀ f, E f = len f.heliocentric.v.toVec ^ 2 / 2 - k ^ 2 / len f.heliocentric.p.toVec) :
    |E e' - E e| ≤ 0.009 * k ^ 2 := by
  have h1 := C121_energy a b h e he _ _ k rfl rfl hk
  have h2 := C121_energy a' b' h' e' he' _ _ k rfl rfl hk
  rw [hE, hE]
  rw [abs_le] at *
  have q : ∀ x : ℝ, k ^ 2 * (2 / x - 1) = 2 * (k ^ 2 / x) - k ^ 2 := fun x => by ring
  rw [q] at h1 h2
  constructor <;> linarith [h1.1, h1.2, h2.1, h2.2]

/-- **C121.** The same in binary64. -/
theorem C121_energy_f64 [Libm F64] (hL : LibmAcc) (x y : F64) (a b : ℚ) (hx : Is x a) (hy : Is y b) (ha : |a| ≤ 4000000)
    (h : |a + b - 2451545| ≤ 36525) (k : ℝ) (hk : k = 0.01720209895) :
    ∃ (e : EarthPosVel F64) (p v : Fin 3 → ℝ), EarthPosVel.fromTDB (x, y) = .ok e ∧ ValueOf e.heliocentric.p p ∧
      ValueOf e.heliocentric.v v ∧ |len v ^ 2 - k ^ 2 * (2 / len p - 1)| ≤ 0.009 * k ^ 2 := by
  obtain ⟨e, r, he, hr, np, nv, -⟩ := C68_ephemeris_f64 hL x y a b hx hy ha h
  rw [fromTDB_real] at hr
  obtain rfl := Except.ok.inj hr
  have hR : |(a : ℝ) + b - 2451545| ≤ 36525 := by exact_mod_cast h
  obtain ⟨p, vp, lp⟩ := np.value (c := 6 / 10 ^ 11) (by norm_num) (by norm_num)
  obtain ⟨v, vv, lv⟩ := nv.value (c := 1.1 / 10 ^ 12) (by norm_num) (by norm_num)
  refine ⟨e, p, v, he, vp, vv, ?_⟩
  have h1 := earth_energy hR
  obtain ⟨l1, l2⟩ := helio_len hR
  have sp := C89_speed _ _ hR _ (fromTDB_real _)
  simp only at lp lv
  have hn : (earthAt (a + b)).heliocentric.v.norm = len (earthAt (a + b)).heliocentric.v.toVec := by rw [norm_real]; rfl
  simp only [hn] at sp
  clear hn
  generalize (earthAt (a + b)).heliocentric.p.toVec = P at *
  generalize (earthAt (a + b)).heliocentric.v.toVec = V at *
  have hl : |len p - len P| ≤ 6 / 10 ^ 11 := by
    refine le_trans ?_ lp
    rw [len_eq, len_eq, len_eq, WithLp.toLp_sub]; exact abs_norm_sub_norm_le _ _
  have hm : |len v - len V| ≤ 1.1 / 10 ^ 12 := by
    refine le_trans ?_ lv
    rw [len_eq, len_eq, len_eq, WithLp.toLp_sub]; exact abs_norm_sub_norm_le _ _
  clear lp lv
  generalize len p = r at *
  generalize len P = R at *
  generalize len v = u at *
  generalize len V = U at *
  have hR0 : (0.98 : ℝ) ≤ R := by norm_num at *; linarith
  have hr0 : (0.97 : ℝ) ≤ r := by rw [abs_le] at hl; norm_num at *; linarith
  have i1 : |1 / r - 1 / R| ≤ 1 / 10 ^ 10 := by
    rw [div_sub_div _ _ (by linarith) (by linarith), abs_div, one_mul, mul_one, abs_of_pos (show 0 < r * R by nlinarith),
      div_le_iff₀ (by nlinarith), abs_sub_comm]
    refine hl.trans ?_
    have : (0.97 * 0.98 : ℝ) ≤ r * R := mul_le_mul hr0 hR0 (by norm_num) (by linarith)
    norm_num at *
    linarith
  have i2 : |u ^ 2 - U ^ 2| ≤ 1 / 10 ^ 12 := by
    rw [sq_sub_sq, abs_mul]
    have : |u + U| ≤ 0.1 := by rw [abs_le] at *; norm_num at *; constructor <;> linarith
    refine (mul_le_mul this hm (abs_nonneg _) (by norm_num)).trans (by norm_num)
  rw [hk]
  have q : ∀ x : ℝ, 2 / x = 2 * (1 / x) := fun x => by ring
  rw [q] at h1 ⊢
  generalize 1 / r = r' at *
  generalize 1 / R = R' at *
  generalize u ^ 2 = u' at *
  generalize U ^ 2 = U' at *
  clear hl hm
  rw [abs_le] at *
  norm_num at *
  constructor <;> linarith [h1.1, h1.2, i1.1, i1.2, i2.1, i2.2]

/-- The date of the reference value in the test suite, and another. -/
example : |(2453412 : ℝ) + 0.52501161 - 2451545| ≤ 36525 ∧ |(2451545 : ℝ) + 0 - 2451545| ≤ 36525 := by norm_num [abs_le]

end Verif
