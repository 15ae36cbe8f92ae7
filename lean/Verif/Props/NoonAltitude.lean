import Verif.Props.Culmination
import Verif.Props.Tropics
import Verif.Props.LongDays

/-!
# C100: the altitude of the Sun at noon and at midnight
-/

namespace Verif
open Arith Matrix Spec F64

/-- Declination of a vector of an equatorial frame: its angle above the plane of the equator. -/
noncomputable def Spec.decl (v : Vec3 ℝ) : ℝ := Real.arcsin (v.z / Real.sqrt (v.x ^ 2 + v.y ^ 2 + v.z ^ 2))

/-- The angle to the north pole is the complement of the declination. -/
theorem ang_pole {v : Vec3 ℝ} (hv : 0 < len (fun i => v.toVec i / 149597870700)) :
    ang (fun i => v.toVec i / 149597870700) ![0, 0, 1] = Real.pi / 2 - decl v := by
  have l1 : len ![(0 : ℝ), 0, 1] = 1 := by unfold len; simp
  have hl := hv
  rw [scaled_len, norm_real] at hl
  have n0 : 0 < Real.sqrt (v.x ^ 2 + v.y ^ 2 + v.z ^ 2) := by
    have := mul_pos hl (show (0 : ℝ) < 149597870700 by norm_num)
    rwa [div_mul_cancel₀ _ (by norm_num)] at this
  have hz : |v.z| ≤ Real.sqrt (v.x ^ 2 + v.y ^ 2 + v.z ^ 2) := by
    apply Real.abs_le_sqrt
    nlinarith [sq_nonneg v.x, sq_nonneg v.y]
  have hz' := abs_le.mp hz
  have b1 := Real.neg_pi_div_two_le_arcsin (v.z / Real.sqrt (v.x ^ 2 + v.y ^ 2 + v.z ^ 2))
  have b2 := Real.arcsin_le_pi_div_two (v.z / Real.sqrt (v.x ^ 2 + v.y ^ 2 + v.z ^ 2))
  refine (eq_ang hv (by rw [l1]; norm_num) (by unfold decl; linarith) (by unfold decl; linarith) ?_).symm
  rw [Real.cos_pi_div_two_sub, decl, Real.sin_arcsin (by rw [le_div_iff₀ n0]; linarith) (by rw [div_le_iff₀ n0]; linarith), l1, scaled_len, norm_real]
  have e : v.toVec 2 = v.z := rfl
  have hne := n0.ne'
  simp [e]
  field_simp

theorem decl_bounds (v : Vec3 ℝ) : |decl v| ≤ Real.pi / 2 := by
  rw [abs_le]
  exact ⟨Real.neg_pi_div_two_le_arcsin _, Real.arcsin_le_pi_div_two _⟩

/-- What a result says about the Sun. -/
theorem sun_state (p : Profile) (q : SunAngleParameters ℝ) (hd : GoodDate q.date) (c : SunAngleCalculator ℝ)
    (hc : SunAngleCalculator.new p q = .ok c) (N : ℤ) (hN : DaysFrom mjdEpoch q.date.civil N) (δ : ℝ)
    (hb : |N - 51544.5 + (3600 * q.time.hour + 60 * q.time.minute + q.time.second + δ) / 86400| ≤ 36524) :
    ∃ r, c.compute δ = .ok r ∧
      r.sza = ang (upward q.position.lon q.position.lat) (fun i => r.sun_e.toVec i / 149597870700) ∧
      0.982 ≤ len (fun i => r.sun_e.toVec i / 149597870700) ∧
      len ((fun i => r.sun_e.toVec i / 149597870700) -
        meanSun (N - 51544.5 + (3600 * q.time.hour + 60 * q.time.minute + q.time.second + δ) / 86400)) ≤ 0.00155 := by
  obtain ⟨r, hr, -, -, -, -, -, -, hz⟩ := sun_at p q hd c hc N hN δ hb
  obtain ⟨r', hr', h1, -, h2, -⟩ := C83_mean_sun p q hd c hc δ N hN _ rfl hb
  obtain rfl := Except.ok.inj (hr.symm.trans hr')
  rw [← sun_vec p q hd c hc δ hr] at hz
  exact ⟨r, hr, hz, by rw [scaled_len]; exact h1, h2⟩

/-- **C100.** At every instant the zenith angle is at least the difference between the latitude and the declination of the Sun
and at most 180 degrees less the size of their sum.  For every accepted date, time and place and every offset, the instant
being within 36524 days of 2000-01-01 12:00 UTC, in exact arithmetic; the declination is that of the vector to the Sun that
the program returns. -/
theorem C100_between (p : Profile) (q : SunAngleParameters ℝ) (hd : GoodDate q.date) (c : SunAngleCalculator ℝ)
    (hc : SunAngleCalculator.new p q = .ok c) (δ : ℝ) (N : ℤ) (hN : DaysFrom mjdEpoch q.date.civil N)
    (hb : |N - 51544.5 + (3600 * q.time.hour + 60 * q.time.minute + q.time.second + δ) / 86400| ≤ 36524)
    (hlat : |q.position.lat| ≤ 90) :
    ∃ r, c.compute δ = .ok r ∧ |q.position.lat * (Real.pi / 180) - decl r.sun_e| ≤ r.sza ∧
      r.sza ≤ Real.pi - |q.position.lat * (Real.pi / 180) + decl r.sun_e| := by
  obtain ⟨r, hr, hz, hl, -⟩ := sun_state p q hd c hc N hN δ hb
  refine ⟨r, hr, ?_⟩
  have ha := ang_pole (v := r.sun_e) (lt_of_lt_of_le (by norm_num) hl)
  rw [hz]
  generalize (fun i => r.sun_e.toVec i / 149597870700) = s at *
  have hup := upward_pole (lon := q.position.lon) hlat
  have t1 := ang_triangle (upward q.position.lon q.position.lat) s ![0, 0, 1]
  have t2 := ang_triangle s (upward q.position.lon q.position.lat) ![0, 0, 1]
  have t3 := ang_triangle (upward q.position.lon q.position.lat) ![0, 0, 1] s
  have t4 := ang_triangle (upward q.position.lon q.position.lat) (-![0, 0, 1]) s
  rw [ang_neg, ang_comm (-![0, 0, 1]) s, ang_neg] at t4
  rw [ang_comm s (upward _ _)] at t2
  rw [ang_comm ![0, 0, 1] s] at t3
  rw [hup, ha] at t1 t2 t3 t4
  have hpi := Real.pi_pos
  constructor
  · rw [abs_le]; constructor <;> linarith
  · rw [le_sub_comm, abs_le]; constructor <;> linarith

/-- A vector close to the meridian plane: its angle to the vertical is the difference, or 180 degrees less the sum, of latitude and
declination. -/
theorem transit {s : Fin 3 → ℝ} {lon lat D e σ : ℝ} (hlat : |lat| ≤ 90) (hl : 0.982 ≤ len s) (ha : ang s ![0, 0, 1] = Real.pi / 2 - D)
    (hE : |Real.cos (lon * (Real.pi / 180)) * s 1 - Real.sin (lon * (Real.pi / 180)) * s 0| ≤ e) (e1 : e ≤ 0.001)
    (hX : 0.1 ≤ σ * (Real.cos (lon * (Real.pi / 180)) * s 0 + Real.sin (lon * (Real.pi / 180)) * s 1)) :
    (σ = 1 → |(ang (upward lon lat) s - |lat * (Real.pi / 180) - D|)| ≤ 3.3 * e) ∧
    (σ = -1 → |ang (upward lon lat) s - (Real.pi - |lat * (Real.pi / 180) + D|)| ≤ 3.3 * e) := by
  have e0 : 0 ≤ e := (abs_nonneg _).trans hE
  have hu := upward_pole (lon := lon) hlat
  have hul := upward_len lon lat
  have hpi := Real.pi_pos
  have lat0 : |lat * (Real.pi / 180)| ≤ Real.pi / 2 := by
    rw [abs_mul, abs_of_pos (show 0 < Real.pi / 180 by positivity)]
    have := mul_le_mul_of_nonneg_right hlat (show 0 ≤ Real.pi / 180 by positivity)
    linarith
  set φ := lat * (Real.pi / 180) with hφ
  have hc0 : 0 ≤ Real.cos φ := Real.cos_nonneg_of_neg_pi_div_two_le_of_le (by linarith [(abs_le.mp lat0).1]) (abs_le.mp lat0).2
  have v0 : upward lon lat 0 = Real.cos φ * Real.cos (lon * (Real.pi / 180)) := rfl
  have v1 : upward lon lat 1 = Real.cos φ * Real.sin (lon * (Real.pi / 180)) := rfl
  have v2 : upward lon lat 2 = Real.sin φ := rfl
  have hcs := Real.sin_sq_add_cos_sq (lon * (Real.pi / 180))
  generalize Real.cos (lon * (Real.pi / 180)) = cl at *
  generalize Real.sin (lon * (Real.pi / 180)) = sl at *
  clear_value φ
  set E := cl * s 1 - sl * s 0 with hEd
  set X := cl * s 0 + sl * s 1 with hXd
  -- projection onto the meridian plane
  set m : Fin 3 → ℝ := ![cl * X, sl * X, s 2] with hm
  have m0 : m 0 = cl * X := rfl
  have m1 : m 1 = sl * X := rfl
  have m2 : m 2 = s 2 := rfl
  have d0 : s 0 - m 0 = -(sl * E) := by rw [m0, hEd, hXd]; linear_combination (-s 0) * hcs
  have d1 : s 1 - m 1 = cl * E := by rw [m1, hEd, hXd]; linear_combination (-s 1) * hcs
  have hd : len (s - m) ≤ e := by
    have : len (s - m) = |E| := by
      unfold len
      simp only [Pi.sub_apply]
      rw [d0, d1, m2, sub_self, ← Real.sqrt_sq_eq_abs]
      congr 1
      linear_combination E ^ 2 * hcs
    rw [this]; exact hE
  have lm : 0.98 ≤ len m := by
    have := len_add (s - m) m
    rw [sub_add_cancel] at this
    norm_num at *; linarith
  have lm2 : len m ^ 2 = X ^ 2 + s 2 ^ 2 := by
    rw [len_sq, m0, m1, m2]
    linear_combination X ^ 2 * hcs
  have hsm : ang s m ≤ 1.61 * e := by
    refine (ang_le_dist (m := 0.98) (by norm_num) (by norm_num at *; linarith) lm hd).trans ?_
    have p2 := Real.pi_lt_d4
    have := mul_le_mul_of_nonneg_right p2.le e0
    norm_num at this ⊢
    linarith
  have l1 : len ![(0 : ℝ), 0, 1] = 1 := by unfold len; simp
  -- declination of the projection
  have hmD := ang_diff ![0, 0, 1] s m
  rw [ang_comm _ s, ang_comm _ m, ha] at hmD
  have hmc := cos_ang m ![0, 0, 1]
  rw [l1, mul_one] at hmc
  simp only [Matrix.cons_val_zero, Matrix.cons_val_one, Matrix.cons_val, mul_zero, mul_one, zero_add] at hmc
  have a0 := ang_nonneg m ![0, 0, 1]
  have a1 := ang_le_pi m ![0, 0, 1]
  obtain ⟨Dm, hDm⟩ : ∃ Dm, ang m ![0, 0, 1] = Real.pi / 2 - Dm := ⟨Real.pi / 2 - ang m ![0, 0, 1], by ring⟩
  rw [hDm] at hmD hmc a0 a1
  rw [Real.cos_pi_div_two_sub, m2] at hmc
  have hcD : 0 ≤ Real.cos Dm := Real.cos_nonneg_of_neg_pi_div_two_le_of_le (by linarith) (by linarith)
  have hX2 : Real.cos Dm * len m = |X| := by
    rw [← Real.sqrt_sq_eq_abs]
    symm
    rw [Real.sqrt_eq_iff_mul_self_eq (sq_nonneg _) (mul_nonneg hcD (len_nonneg _))]
    have := Real.sin_sq_add_cos_sq Dm
    linear_combination -(len m ^ 2) * this - lm2 + (Real.sin Dm * len m + s 2) * hmc
  have hdm := ang_diff (upward lon lat) s m
  have lp : 0 < len m := by linarith
  have hD' : |D - Dm| ≤ 1.61 * e := by
    rw [show Real.pi / 2 - D - (Real.pi / 2 - Dm) = -(D - Dm) by ring, abs_neg] at hmD
    linarith
  have φ0 := abs_le.mp lat0
  refine ⟨fun h => ?_, fun h => ?_⟩
  · rw [h, one_mul] at hX
    have hk : |φ - Dm| = ang (upward lon lat) m := by
      refine eq_ang (by rw [hul]; norm_num) lp (abs_nonneg _) (by rw [abs_le]; constructor <;> linarith [φ0.1, φ0.2]) ?_
      rw [abs_of_pos (by linarith : 0 < X)] at hX2
      rw [Real.cos_abs, Real.cos_sub, hul, v0, v1, v2, m0, m1, m2]
      linear_combination Real.cos φ * hX2 + Real.sin φ * hmc - Real.cos φ * X * hcs
    have tri : |(|φ - Dm| - |φ - D|)| ≤ |D - Dm| := by
      refine (abs_abs_sub_abs_le_abs_sub _ _).trans (le_of_eq ?_)
      congr 1; ring
    rw [← hk] at hdm
    have tri := abs_le.mp (tri.trans hD')
    have hdm := abs_le.mp (hdm.trans hsm)
    rw [abs_le]
    norm_num at tri hdm ⊢
    constructor <;> linarith [tri.1, tri.2, hdm.1, hdm.2]
  · rw [h] at hX
    have hk : Real.pi - |φ + Dm| = ang (upward lon lat) m := by
      refine eq_ang (by rw [hul]; norm_num) lp (by rw [sub_nonneg, abs_le]; constructor <;> linarith [φ0.1, φ0.2]) (by linarith [abs_nonneg (φ + Dm)]) ?_
      rw [abs_of_neg (by linarith : X < 0)] at hX2
      rw [Real.cos_pi_sub, Real.cos_abs, Real.cos_add, hul, v0, v1, v2, m0, m1, m2]
      linear_combination -Real.cos φ * hX2 + Real.sin φ * hmc - Real.cos φ * X * hcs
    have tri : |(|φ + Dm| - |φ + D|)| ≤ |D - Dm| := by
      refine (abs_abs_sub_abs_le_abs_sub _ _).trans (le_of_eq ?_)
      rw [abs_sub_comm]; congr 1; ring
    rw [← hk] at hdm
    have tri := abs_le.mp (tri.trans hD')
    have hdm := abs_le.mp (hdm.trans hsm)
    rw [abs_le]
    norm_num at tri hdm ⊢
    constructor <;> linarith [tri.1, tri.2, hdm.1, hdm.2]

/-- The directions to the Sun at two offsets. -/
theorem sun_turn (p : Profile) (q : SunAngleParameters ℝ) (hd : GoodDate q.date) (c : SunAngleCalculator ℝ)
    (hc : SunAngleCalculator.new p q = .ok c) (N : ℤ) (hN : DaysFrom mjdEpoch q.date.civil N) {s t : ℝ}
    (hs : |N - 51544.5 + (3600 * q.time.hour + 60 * q.time.minute + q.time.second + s) / 86400| ≤ 36524)
    (ht : |N - 51544.5 + (3600 * q.time.hour + 60 * q.time.minute + q.time.second + t) / 86400| ≤ 36524)
    {r r' : SunAngleResult ℝ} (hr : c.compute s = .ok r) (hr' : c.compute t = .ok r') :
    ang (fun i => r.sun_e.toVec i / 149597870700) (fun i => r'.sun_e.toVec i / 149597870700) ≤ 7.33e-5 * |s - t| + 5e-19 := by
  obtain ⟨x, hx, htt, hut, hd0, hd1, -, b0, -⟩ := sun_at p q hd c hc N hN s hs
  obtain ⟨x', hx', htt', hut', hd0', hd1', -, b0', -⟩ := sun_at p q hd c hc N hN t ht
  obtain rfl := Except.ok.inj (hr.symm.trans hx)
  obtain rfl := Except.ok.inj (hr'.symm.trans hx')
  have hdat : r.dat = r'.dat := by
    by_cases hy : q.date.year < 1960
    · rw [hd0 hy, hd0' hy]
    · have k := (hd1 (by omega)).symm.trans (hd1' (by omega))
      simpa using k
  have scale : ∀ x : ℝ, |x / 86400| = |x| / 86400 := fun x => by
    rw [abs_div, abs_of_pos (show (0 : ℝ) < 86400 by norm_num)]
  have D1 : |r.tt.1 + r.tt.2 - (r'.tt.1 + r'.tt.2)| = |s - t| / 86400 := by
    rw [htt, htt', hdat, ← scale]
    ring_nf
  have D2 : |r.ut1.1 + r.ut1.2 - (r'.ut1.1 + r'.ut1.2)| = |s - t| / 86400 := by
    rw [hut, hut', ← scale]
    ring_nf
  refine (sun_lip b0 b0' D1 D2 (sun_vec p q hd c hc s hr) (sun_vec p q hd c hc t hr')).trans ?_
  have := abs_nonneg (s - t)
  norm_num
  linarith

/-- Between two offsets with the Sun east and west of the meridian there is one with the Sun on it. -/
theorem transit_between (p : Profile) (q : SunAngleParameters ℝ) (hd : GoodDate q.date) (c : SunAngleCalculator ℝ)
    (hc : SunAngleCalculator.new p q = .ok c) (N : ℤ) (hN : DaysFrom mjdEpoch q.date.civil N) {δ δ' σ : ℝ} (hle : δ ≤ δ')
    (hσ : σ = 1 ∨ σ = -1)
    (hb : ∀ x ∈ Set.Icc δ δ', |N - 51544.5 + (3600 * q.time.hour + 60 * q.time.minute + q.time.second + x) / 86400| ≤ 36524)
    (h1 : ∀ r, c.compute δ = .ok r → 0 ≤ σ * (Real.cos (q.position.lon * (Real.pi / 180)) * (r.sun_e.y / 149597870700) -
      Real.sin (q.position.lon * (Real.pi / 180)) * (r.sun_e.x / 149597870700)))
    (h2 : ∀ r, c.compute δ' = .ok r → σ * (Real.cos (q.position.lon * (Real.pi / 180)) * (r.sun_e.y / 149597870700) -
      Real.sin (q.position.lon * (Real.pi / 180)) * (r.sun_e.x / 149597870700)) ≤ 0) :
    ∃ a ∈ Set.Icc δ δ', ∃ r, c.compute a = .ok r ∧ |Real.cos (q.position.lon * (Real.pi / 180)) * (r.sun_e.y / 149597870700) -
      Real.sin (q.position.lon * (Real.pi / 180)) * (r.sun_e.x / 149597870700)| ≤ 1e-18 := by
  have tot : ∀ δ, ∃ r, c.compute δ = .ok r := compute_total c
  choose R hR using tot
  replace h1 := h1 _ (hR δ)
  replace h2 := h2 _ (hR δ')
  set S : ℝ → Fin 3 → ℝ := fun x i => (R x).sun_e.toVec i / 149597870700 with hS
  have hcs := Real.sin_sq_add_cos_sq (q.position.lon * (Real.pi / 180))
  generalize Real.cos (q.position.lon * (Real.pi / 180)) = cl at *
  generalize Real.sin (q.position.lon * (Real.pi / 180)) = sl at *
  have σ2 : σ ^ 2 = 1 := by rcases hσ with h | h <;> rw [h] <;> norm_num
  set E : Fin 3 → ℝ := ![-(σ * sl), σ * cl, 0] with hE
  have lE : len E = 1 := by
    unfold len
    rw [Real.sqrt_eq_one, hE]
    simp
    linear_combination (sl ^ 2 + cl ^ 2) * σ2 + hcs
  have dot : ∀ x, Real.cos (ang E (S x)) * len (S x) = σ * (cl * S x 1 - sl * S x 0) := by
    intro x
    have := cos_ang E (S x)
    rw [lE, one_mul] at this
    rw [this, hE]
    simp
    ring
  have lo : ∀ x ∈ Set.Icc δ δ', 0.982 ≤ len (S x) ∧ len (S x) ≤ 1.019 := by
    intro x hx
    obtain ⟨r', hr', g1, g2, -⟩ := C83_mean_sun p q hd c hc x N hN _ rfl (hb x hx)
    obtain rfl := Except.ok.inj ((hR x).symm.trans hr')
    rw [hS, scaled_len]
    exact ⟨g1, g2⟩
  have lip : ∀ s ∈ Set.Icc δ δ', ∀ t ∈ Set.Icc δ δ', |ang E (S s) - ang E (S t)| ≤ 7.33e-5 * |s - t| + 5e-19 := by
    intro s hs t ht
    exact (ang_diff _ _ _).trans (sun_turn p q hd c hc N hN (hb s hs) (hb t ht) (hR s) (hR t))
  have side : ∀ x, 0 ≤ Real.cos (ang E (S x)) → ang E (S x) ≤ Real.pi / 2 := by
    intro x hx
    by_contra hlt
    push Not at hlt
    have := Real.cos_neg_of_pi_div_two_lt_of_lt hlt (by linarith [ang_le_pi E (S x), Real.pi_pos])
    linarith
  have side' : ∀ x, Real.cos (ang E (S x)) ≤ 0 → Real.pi / 2 ≤ ang E (S x) := by
    intro x hx
    by_contra hlt
    push Not at hlt
    have := Real.cos_pos_of_mem_Ioo ⟨by linarith [ang_nonneg E (S x), Real.pi_pos], hlt⟩
    linarith
  have l0 := (lo δ ⟨le_refl _, hle⟩).1
  have l0' := (lo δ' ⟨hle, le_refl _⟩).1
  have s1 : ang E (S δ) ≤ Real.pi / 2 := by
    apply side
    by_contra hlt
    push Not at hlt
    have := mul_neg_of_neg_of_pos hlt (show 0 < len (S δ) by linarith)
    rw [dot δ] at this
    exact absurd h1 (not_le.mpr this)
  have s2 : Real.pi / 2 ≤ ang E (S δ') := by
    apply side'
    by_contra hlt
    push Not at hlt
    have := mul_pos hlt (show 0 < len (S δ') by linarith)
    rw [dot δ'] at this
    exact absurd h2 (not_le.mpr this)
  obtain ⟨a, ha, hz⟩ := value_between (f := fun x => ang E (S x)) (η := 1e-19) hle (by norm_num) (by norm_num) lip s1 s2
  refine ⟨a, ha, R a, hR a, ?_⟩
  obtain ⟨g1, g2⟩ := lo a ha
  have hcos : |Real.cos (ang E (S a))| ≤ 6e-19 := by
    have := cos_near (ang E (S a)) (Real.pi / 2) 6e-19 (by norm_num at hz ⊢; linarith)
    rwa [Real.cos_pi_div_two, sub_zero] at this
  have hd := dot a
  have : |σ * (cl * S a 1 - sl * S a 0)| ≤ 1e-18 := by
    rw [← hd, abs_mul, abs_of_nonneg (show 0 ≤ len (S a) by linarith)]
    have := mul_le_mul hcos g2 (by linarith) (by norm_num)
    norm_num at this ⊢
    linarith
  rw [abs_mul, show |σ| = 1 by rcases hσ with h | h <;> rw [h] <;> norm_num, one_mul] at this
  exact this

/-- **C100.** Noon and midnight.  For every accepted date, time and place and every day `k` of local mean solar time (hours
`24 k` to `24 k + 24` of `T`, UTC plus one hour for every 15 degrees of east longitude, counted from the date of the
parameters) within a century of J2000.0, in exact arithmetic: at some offset within half an hour of noon the zenith angle is
the difference between the latitude and the declination of the Sun, and at some offset within half an hour of the midnight that
ends the day it is 180 degrees less the size of their sum, in both cases to `4e-18` radians. -/
theorem C100_noon_and_midnight (p : Profile) (q : SunAngleParameters ℝ) (hd : GoodDate q.date) (c : SunAngleCalculator ℝ)
    (hc : SunAngleCalculator.new p q = .ok c) (N : ℤ) (hN : DaysFrom mjdEpoch q.date.civil N) (hlat : |q.position.lat| ≤ 90)
    (T : ℝ → ℝ) (hT : ∀ δ, T δ = (3600 * q.time.hour + 60 * q.time.minute + q.time.second + δ) / 3600 + q.position.lon / 15)
    (k : ℤ) (hk : |(N + k : ℝ) - 51544 - q.position.lon / 360| ≤ 36523) :
    (∃ a r, |T a - 12 - 24 * k| ≤ 0.5 ∧ c.compute a = .ok r ∧
      |(r.sza - |q.position.lat * (Real.pi / 180) - decl r.sun_e|)| ≤ 4e-18) ∧
    ∃ b r, |T b - 24 - 24 * k| ≤ 0.5 ∧ c.compute b = .ok r ∧
      |(r.sza - (Real.pi - |q.position.lat * (Real.pi / 180) + decl r.sun_e|))| ≤ 4e-18 := by
  set W : ℝ := 3600 * q.time.hour + 60 * q.time.minute + q.time.second with hW
  have inv : ∀ h : ℝ, T (3600 * (24 * k + h - q.position.lon / 15) - W) = 24 * k + h := fun h => by rw [hT]; ring
  have rng : ∀ δ, 24 * k ≤ T δ → T δ ≤ 24 * k + 25 → |N - 51544.5 + (W + δ) / 86400| ≤ 36524 := by
    intro δ h0 h1
    rw [hT] at h0 h1
    rw [abs_le] at hk ⊢
    norm_num at hk ⊢
    constructor <;> linarith [hk.1, hk.2]
  have mono : ∀ {s t : ℝ}, s ≤ t → T s ≤ T t := fun h => by rw [hT, hT]; linarith
  have hpi := Real.pi_pos
  have p1 := Real.pi_gt_d4
  have p2 := Real.pi_lt_d4
  -- the Sun of the program against the mean Sun
  have east : ∀ δ, |N - 51544.5 + (W + δ) / 86400| ≤ 36524 → ∀ r, c.compute δ = .ok r →
      |Real.cos (q.position.lon * (Real.pi / 180)) * (r.sun_e.y / 149597870700) - Real.sin (q.position.lon * (Real.pi / 180)) * (r.sun_e.x / 149597870700) -
        (Real.cos (q.position.lon * (Real.pi / 180)) * meanSun (N - 51544.5 + (W + δ) / 86400) 1 -
          Real.sin (q.position.lon * (Real.pi / 180)) * meanSun (N - 51544.5 + (W + δ) / 86400) 0)| ≤ 0.00155 ∧
      |Real.cos (q.position.lon * (Real.pi / 180)) * (r.sun_e.x / 149597870700) + Real.sin (q.position.lon * (Real.pi / 180)) * (r.sun_e.y / 149597870700) -
        (Real.cos (q.position.lon * (Real.pi / 180)) * meanSun (N - 51544.5 + (W + δ) / 86400) 0 +
          Real.sin (q.position.lon * (Real.pi / 180)) * meanSun (N - 51544.5 + (W + δ) / 86400) 1)| ≤ 0.00155 := by
    intro δ hδ r hr
    obtain ⟨r', hr', -, -, near⟩ := sun_state p q hd c hc N hN δ hδ
    obtain rfl := Except.ok.inj (hr.symm.trans hr')
    rw [← hW] at near
    have hcs := Real.sin_sq_add_cos_sq (q.position.lon * (Real.pi / 180))
    generalize Real.cos (q.position.lon * (Real.pi / 180)) = cl at *
    generalize Real.sin (q.position.lon * (Real.pi / 180)) = sl at *
    generalize meanSun _ = m at *
    have d1 := dot_le ![-sl, cl, 0] ((fun i => r.sun_e.toVec i / 149597870700) - m)
    have d2 := dot_le ![cl, sl, 0] ((fun i => r.sun_e.toVec i / 149597870700) - m)
    have l1 : len ![-sl, cl, 0] = 1 := by unfold len; rw [Real.sqrt_eq_one]; simp; linarith
    have l2 : len ![cl, sl, 0] = 1 := by unfold len; rw [Real.sqrt_eq_one]; simp; linarith
    rw [l1, one_mul] at d1
    rw [l2, one_mul] at d2
    have x0 : r.sun_e.toVec 0 = r.sun_e.x := rfl
    have x1 : r.sun_e.toVec 1 = r.sun_e.y := rfl
    simp only [Pi.sub_apply, Matrix.cons_val_zero, Matrix.cons_val_one, Matrix.cons_val, x0, x1] at d1 d2
    constructor
    · refine le_trans (le_of_eq (congrArg (fun x : ℝ => |x|) ?_)) (d1.trans near)
      ring
    · refine le_trans (le_of_eq (congrArg (fun x : ℝ => |x|) ?_)) (d2.trans near)
      ring
  have cosb : ∀ t : ℝ, |t| ≤ 0.5 → 0.99 ≤ Real.cos (Real.pi / 12 * t) := by
    intro t ht
    have h1 := Real.one_sub_sq_div_two_le_cos (x := Real.pi / 12 * t)
    have h2 : (Real.pi / 12 * t) ^ 2 ≤ 0.14 ^ 2 := by
      apply sq_le_sq'
      · have := mul_le_mul_of_nonneg_left (abs_le.mp ht).1 hpi.le
        norm_num at *; linarith
      · have := mul_le_mul_of_nonneg_left (abs_le.mp ht).2 hpi.le
        norm_num at *; linarith
    norm_num at *
    linarith
  constructor
  · obtain ⟨a, ha, r, hr, hE⟩ := transit_between p q hd c hc N hN (δ := 3600 * (24 * k + 11.5 - q.position.lon / 15) - W)
      (δ' := 3600 * (24 * k + 12.5 - q.position.lon / 15) - W) (σ := 1) (by norm_num) (.inl rfl)
      (fun x hx => by
        have m1 := mono hx.1
        have m2 := mono hx.2
        rw [inv] at m1 m2
        exact rng x (by norm_num at m1; linarith) (by norm_num at m2; linarith))
      (fun r hr => by
        have hi := inv 11.5
        have hr1 := rng _ (by rw [hi]; norm_num) (by rw [hi]; norm_num)
        have := abs_le.mp (east _ hr1 r hr).1
        have := (mean_climb_long (lon := q.position.lon) (k := k) rfl (hr1.trans (by norm_num)) (hT _)).1 (by rw [hi, abs_le]; norm_num; constructor <;> linarith)
        norm_num at *
        linarith)
      (fun r hr => by
        have hi := inv 12.5
        have hr1 := rng _ (by rw [hi]; norm_num) (by rw [hi]; norm_num)
        have := abs_le.mp (east _ hr1 r hr).1
        have := (mean_climb_long (lon := q.position.lon) (k := k) rfl (hr1.trans (by norm_num)) (hT _)).2 (by rw [hi, abs_le]; norm_num; constructor <;> linarith)
        norm_num at *
        linarith)
    have m1 := mono ha.1
    have m2 := mono ha.2
    rw [inv] at m1 m2
    have hTa : |T a - 12 - 24 * k| ≤ 0.5 := by rw [abs_le]; norm_num at m1 m2 ⊢; constructor <;> linarith
    refine ⟨a, r, hTa, hr, ?_⟩
    have hra := rng a (by norm_num at m1; linarith) (by norm_num at m2; linarith)
    obtain ⟨r', hr', hz, hl, -⟩ := sun_state p q hd c hc N hN a hra
    obtain rfl := Except.ok.inj (hr.symm.trans hr')
    have hX : 0.1 ≤ 1 * (Real.cos (q.position.lon * (Real.pi / 180)) * (r.sun_e.x / 149597870700) +
        Real.sin (q.position.lon * (Real.pi / 180)) * (r.sun_e.y / 149597870700)) := by
      have h1 := abs_le.mp (east a hra r hr).2
      have h2 := cosb _ hTa
      have h3 := meridian (n := N - 51544.5 + (W + a) / 86400) (lam := q.position.lon * (Real.pi / 180)) (h := Real.pi / 12 * (T a - 12 - 24 * k))
        (hra.trans (by norm_num)) ⟨N - 51544 + k, by rw [hT a]; push_cast; norm_num; ring⟩ (by linarith)
      have h4 := Real.abs_sin_le_one (Real.pi / 12 * (T a - 12 - 24 * k))
      norm_num at *
      linarith
    rw [hz]
    refine ((transit hlat hl (ang_pole (lt_of_lt_of_le (by norm_num) hl)) hE (by norm_num) hX).1 rfl).trans (by norm_num)
  · obtain ⟨a, ha, r, hr, hE⟩ := transit_between p q hd c hc N hN (δ := 3600 * (24 * k + 23.5 - q.position.lon / 15) - W)
      (δ' := 3600 * (24 * k + 24.5 - q.position.lon / 15) - W) (σ := -1) (by norm_num) (.inr rfl)
      (fun x hx => by
        have m1 := mono hx.1
        have m2 := mono hx.2
        rw [inv] at m1 m2
        exact rng x (by norm_num at m1; linarith) (by norm_num at m2; linarith))
      (fun r hr => by
        have hi := inv 23.5
        have hr1 := rng _ (by rw [hi]; norm_num) (by rw [hi]; norm_num)
        have := abs_le.mp (east _ hr1 r hr).1
        have := (mean_climb_long (lon := q.position.lon) (k := k) rfl (hr1.trans (by norm_num)) (hT _)).2 (by rw [hi, abs_le]; norm_num; constructor <;> linarith)
        norm_num at *
        linarith)
      (fun r hr => by
        have hi := inv 24.5
        have hr1 := rng _ (by rw [hi]; norm_num) (by rw [hi]; norm_num)
        have := abs_le.mp (east _ hr1 r hr).1
        have := (mean_climb_long (lon := q.position.lon) (k := k + 1) rfl (hr1.trans (by norm_num)) (hT _)).1 (by
          rw [hi]; push_cast; rw [abs_le]; norm_num; constructor <;> linarith)
        norm_num at *
        linarith)
    have m1 := mono ha.1
    have m2 := mono ha.2
    rw [inv] at m1 m2
    have hTa : |T a - 24 - 24 * k| ≤ 0.5 := by rw [abs_le]; norm_num at m1 m2 ⊢; constructor <;> linarith
    refine ⟨a, r, hTa, hr, ?_⟩
    have hra := rng a (by norm_num at m1; linarith) (by norm_num at m2; linarith)
    obtain ⟨r', hr', hz, hl, -⟩ := sun_state p q hd c hc N hN a hra
    obtain rfl := Except.ok.inj (hr.symm.trans hr')
    have hX : 0.1 ≤ -1 * (Real.cos (q.position.lon * (Real.pi / 180)) * (r.sun_e.x / 149597870700) +
        Real.sin (q.position.lon * (Real.pi / 180)) * (r.sun_e.y / 149597870700)) := by
      have h1 := abs_le.mp (east a hra r hr).2
      have h2 := cosb _ hTa
      have h3 := antimeridian (n := N - 51544.5 + (W + a) / 86400) (lam := q.position.lon * (Real.pi / 180)) (h := Real.pi / 12 * (T a - 24 - 24 * k))
        (hra.trans (by norm_num)) ⟨N - 51544 + 1 + k, by rw [hT a]; push_cast; norm_num; ring⟩ (by linarith)
      have h4 := Real.abs_sin_le_one (Real.pi / 12 * (T a - 24 - 24 * k))
      norm_num at *
      linarith
    rw [hz]
    refine ((transit hlat hl (ang_pole (lt_of_lt_of_le (by norm_num) hl)) hE (by norm_num) hX).2 rfl).trans (by norm_num)

/-- The default parameters of the program, moved to 60 degrees north, on the day itself and the next. -/
example : GoodDate (SunAngleParameters.default (α := ℝ)).date ∧ |(60 : ℝ)| ≤ 90 ∧
    ∀ k ∈ [0, 1], |((54195 : ℤ) + (k : ℤ) : ℝ) - 51544 - (SunAngleParameters.default (α := ℝ)).position.lon / 360| ≤ 36523 := by
  refine ⟨⟨by decide, by decide, by decide⟩, by norm_num [abs_le], ?_⟩
  norm_num [SunAngleParameters.default, abs_le]

/-- Declinations of two vectors to the Sun. -/
theorem decl_diff {v w : Vec3 ℝ} (hv : 0 < len (fun i => v.toVec i / 149597870700)) (hw : 0 < len (fun i => w.toVec i / 149597870700)) :
    |decl v - decl w| ≤ ang (fun i => v.toVec i / 149597870700) (fun i => w.toVec i / 149597870700) := by
  have h := ang_diff ![0, 0, 1] (fun i => v.toVec i / 149597870700) (fun i => w.toVec i / 149597870700)
  rw [ang_comm _ (fun i => v.toVec i / 149597870700), ang_comm ![0, 0, 1], ang_pole hv, ang_pole hw, abs_sub_comm] at h
  refine le_trans (le_of_eq (congrArg (fun x : ℝ => |x|) ?_)) h
  ring

/-- Vectors to the Sun that agree to 85 metres in every coordinate have the same declination to `2e-9`. -/
theorem decl_near {v u : Vec3 ℝ} (ex : |v.x - u.x| ≤ 85) (ey : |v.y - u.y| ≤ 85) (ew : |v.z - u.z| ≤ 85)
    (hl : 0.982 ≤ len (fun i => u.toVec i / 149597870700)) : |decl v - decl u| ≤ 2e-9 := by
  have hdist : len ((fun i => v.toVec i / 149597870700) - (fun i => u.toVec i / 149597870700)) ≤ 1e-9 := by
    have e : ∀ {a b : ℝ}, |a - b| ≤ 85 → (a / 149597870700 - b / 149597870700) ^ 2 ≤ (5.7e-10) ^ 2 := by
      intro a b h
      have := abs_le.mp h
      rw [← sub_div]
      apply sq_le_sq'
      · rw [le_div_iff₀ (by norm_num)]; norm_num; linarith [this.1]
      · rw [div_le_iff₀ (by norm_num)]; norm_num; linarith [this.2]
    unfold len
    refine Real.sqrt_le_iff.mpr ⟨by norm_num, ?_⟩
    have f1 := e ex
    have f2 := e ey
    have f3 := e ew
    show (v.x / 149597870700 - u.x / 149597870700) ^ 2 + (v.y / 149597870700 - u.y / 149597870700) ^ 2 +
      (v.z / 149597870700 - u.z / 149597870700) ^ 2 ≤ _
    refine (add_le_add (add_le_add f1 f2) f3).trans (by norm_num)
  have hl' : 0.98 ≤ len (fun i => v.toVec i / 149597870700) := by
    have := len_sub (fun i => v.toVec i / 149597870700) ((fun i => v.toVec i / 149597870700) - (fun i => u.toVec i / 149597870700))
    rw [sub_sub_cancel] at this
    norm_num at *
    linarith
  refine (decl_diff (lt_of_lt_of_le (by norm_num) hl') (lt_of_lt_of_le (by norm_num) hl)).trans
    ((ang_le_dist (m := 0.98) (by norm_num) hl' (le_trans (by norm_num) hl) hdist).trans ?_)
  have p2 := Real.pi_lt_d4
  norm_num at p2 ⊢
  linarith

/-- The zenith angle and the declination of the Sun in binary64 against those in exact arithmetic. -/
theorem sun_f64 [Libm F64] (hL : LibmAcc) (p : Profile) (q : SunAngleParameters F64) (δ : F64) (s l b h d : ℚ)
    (N : ℤ) (H : SunInput q δ s l b h d N) (h1 : 24 ≤ |b|) (h2 : |b| ≤ 90) :
    ∃ (c : SunAngleCalculator F64) (r : SunAngleResult F64) (z x y w : ℚ) (C : SunAngleCalculator ℝ) (R : SunAngleResult ℝ),
      SunAngleCalculator.new p q = .ok c ∧ c.compute δ = .ok r ∧ Is r.sza z ∧ Is r.sun_e.x x ∧ Is r.sun_e.y y ∧ Is r.sun_e.z w ∧
      SunAngleCalculator.new p (exactParams q s l b h) = .ok C ∧ C.compute (d : ℝ) = .ok R ∧
      |(z : ℝ) - R.sza| ≤ 1.9e-7 ∧ |decl ⟨(x : ℝ), y, w⟩ - decl R.sun_e| ≤ 2e-9 ∧
      |(N : ℝ) - 51544.5 + (3600 * q.time.hour + 60 * q.time.minute + s + d) / 86400| ≤ 36524 := by
  obtain ⟨c, C, r, R, hc, hC, hr, hR, -, -, ⟨⟨x, ix, ex⟩, ⟨y, iy, ey⟩, ⟨w, iw, ew⟩⟩, -, acc⟩ := C72_sun_angle_f64 hL p q δ s l b h d N H
  have gd : GoodDate (exactParams q s l b h).date := H.date
  have hb : |(N : ℝ) - 51544.5 + (3600 * q.time.hour + 60 * q.time.minute + s + d) / 86400| ≤ 36524 := by
    have h1 := (Rat.cast_le (K := ℝ)).mpr H.century
    push_cast at h1
    refine le_trans (le_of_eq (congrArg (fun x : ℝ => |x|) ?_)) h1
    norm_num
    ring
  have h1' : 24 ≤ |(b : ℝ)| := by exact_mod_cast h1
  have h2' : |(b : ℝ)| ≤ 90 := by exact_mod_cast h2
  obtain ⟨R', hR', lo, hi⟩ := C92_tropics p (exactParams q s l b h) gd C hC d N H.days hb h2'
  obtain rfl := Except.ok.inj (hR.symm.trans hR')
  obtain ⟨R', hR', -, hl, -⟩ := sun_state p (exactParams q s l b h) gd C hC N H.days d hb
  obtain rfl := Except.ok.inj (hR.symm.trans hR')
  change (|(b : ℝ)| - 23.6) * (Real.pi / 180) ≤ _ at lo
  change _ ≤ Real.pi - (|(b : ℝ)| - 23.6) * (Real.pi / 180) at hi
  generalize |(b : ℝ)| = B at *
  have p1 := Real.pi_gt_d4
  have p2 := Real.pi_lt_d4
  have low : 0.0069 ≤ (B - 23.6) * (Real.pi / 180) := by
    have : 0.4 * (Real.pi / 180) ≤ (B - 23.6) * (Real.pi / 180) := by
      apply mul_le_mul_of_nonneg_right _ (by positivity)
      norm_num at *; linarith
    norm_num at *; linarith
  have hsin : 0.0068 ≤ Real.sin R.sza := by
    have mid : ∀ {y : ℝ}, 0.0069 ≤ y → y ≤ Real.pi / 2 → 0.0068 ≤ Real.sin y := by
      intro y h0 h1
      have k1 := Real.sin_gt_sub_cube (x := 0.0069) (by norm_num)
      have k2 := Real.sin_le_sin_of_le_of_le_pi_div_two (by norm_num at *; linarith) h1 h0
      norm_num at k1 k2 ⊢
      linarith
    rcases le_total R.sza (Real.pi / 2) with h3 | h3
    · exact mid (low.trans lo) h3
    · rw [← Real.sin_pi_sub]
      exact mid (by linarith) (by linarith)
  obtain ⟨z, iz, ez⟩ := acc (le_trans (by norm_num) hsin)
  refine ⟨c, r, z, x, y, w, C, R, hc, hr, iz, ix, iy, iw, hC, hR, ?_, ?_, hb⟩
  · refine ez.trans ?_
    have : 1.23 / 10 ^ 9 / Real.sin R.sza ≤ 1.23 / 10 ^ 9 / 0.0068 := by gcongr
    refine (add_le_add this le_rfl).trans ?_
    norm_num
  · exact decl_near (v := ⟨(x : ℝ), y, w⟩) ex ey ew hl

/-- **C100.** In binary64 from 24 degrees of latitude on, for finite parameters within a century of J2000.0 and any mathematical
library accurate to `2^-50`: the zenith angle is at least the difference between the latitude and the declination of the
returned vector to the Sun and at most 180 degrees less the size of their sum, to `2e-7` radians. -/
theorem C100_between_f64 [Libm F64] (hL : LibmAcc) (p : Profile) (q : SunAngleParameters F64) (δ : F64) (s l b h d : ℚ)
    (N : ℤ) (H : SunInput q δ s l b h d N) (h1 : 24 ≤ |b|) (h2 : |b| ≤ 90) :
    ∃ (c : SunAngleCalculator F64) (r : SunAngleResult F64) (z x y w : ℚ), SunAngleCalculator.new p q = .ok c ∧
      c.compute δ = .ok r ∧ Is r.sza z ∧ Is r.sun_e.x x ∧ Is r.sun_e.y y ∧ Is r.sun_e.z w ∧
      |(b : ℝ) * (Real.pi / 180) - decl ⟨(x : ℝ), y, w⟩| - 2e-7 ≤ z ∧
      z ≤ Real.pi - |(b : ℝ) * (Real.pi / 180) + decl ⟨(x : ℝ), y, w⟩| + 2e-7 := by
  obtain ⟨c, r, z, x, y, w, C, R, hc, hr, iz, ix, iy, iw, hC, hR, ez, ed, hb⟩ := sun_f64 hL p q δ s l b h d N H h1 h2
  refine ⟨c, r, z, x, y, w, hc, hr, iz, ix, iy, iw, ?_⟩
  have h2' : |(b : ℝ)| ≤ 90 := by exact_mod_cast h2
  obtain ⟨R', hR', lo, hi⟩ := C100_between p (exactParams q s l b h) H.date C hC d N H.days hb h2'
  obtain rfl := Except.ok.inj (hR.symm.trans hR')
  change |(b : ℝ) * (Real.pi / 180) - _| ≤ _ at lo
  change _ ≤ Real.pi - |(b : ℝ) * (Real.pi / 180) + _| at hi
  generalize (b : ℝ) * (Real.pi / 180) = φ at *
  generalize decl _ = D at *
  generalize decl _ = D' at *
  have t1 := abs_sub_abs_le_abs_sub (φ - D) (φ - D')
  have t2 := abs_sub_abs_le_abs_sub (φ + D) (φ + D')
  rw [show φ - D - (φ - D') = -(D - D') by ring, abs_neg] at t1
  rw [show φ + D - (φ + D') = D - D' by ring] at t2
  have ez := abs_le.mp ez
  norm_num at *
  constructor <;> linarith

/-- **C100.** The altitude at noon in binary64, from 24 degrees of latitude on: for finite parameters within a century of J2000.0,
any mathematical library accurate to `2^-50` and every day `k` of local mean solar time there is a whole number of seconds
within half an hour and half a second of noon such that with that offset the zenith angle is the difference between the
latitude and the declination of the returned vector to the Sun, to `7.4e-5` radians (16 seconds of arc). -/
theorem C100_noon_f64 [Libm F64] (hL : LibmAcc) (p : Profile) (q : SunAngleParameters F64) (s l b h : ℚ)
    (N : ℤ) (H : SunInput q (lit 0) s l b h 0 N) (h1 : 24 ≤ |b|) (h2 : |b| ≤ 90) (k : ℤ) (hk : |k| ≤ 11000)
    (hd : |(N + k : ℚ) - 51544 - l / 360| ≤ 36522) :
    ∃ (d : ℤ) (c : SunAngleCalculator F64) (r : SunAngleResult F64) (z x y w : ℚ),
      |((3600 * q.time.hour + 60 * q.time.minute + s + d) / 3600 + l / 15 : ℚ) - 12 - 24 * k| ≤ 1801 / 3600 ∧
      SunAngleCalculator.new p q = .ok c ∧ c.compute (lit d) = .ok r ∧ Is r.sza z ∧
      Is r.sun_e.x x ∧ Is r.sun_e.y y ∧ Is r.sun_e.z w ∧
      |(z - |(b : ℝ) * (Real.pi / 180) - decl ⟨(x : ℝ), y, w⟩|)| ≤ 7.4e-5 := by
  have gd : GoodDate (exactParams q s l b h).date := H.date
  have h2' : |(b : ℝ)| ≤ 90 := by exact_mod_cast h2
  obtain ⟨-, -, -, -, -, -, C, -, -, -, -, -, -, -, hC, -⟩ := sun_f64 hL p q (lit 0) s l b h 0 N H h1 h2
  have hd' : |(N + k : ℝ) - 51544 - (l : ℝ) / 360| ≤ 36522 := by
    have := (Rat.cast_le (K := ℝ)).mpr hd
    push_cast at this
    exact this
  obtain ⟨⟨a, ra, hTa, hra, eza⟩, -⟩ := C100_noon_and_midnight p (exactParams q s l b h) gd C hC N H.days h2' _ (fun _ => rfl) k
    (hd'.trans (by norm_num))
  set W : ℝ := 3600 * q.time.hour + 60 * q.time.minute + s with hW
  change |(W + a) / 3600 + (l : ℝ) / 15 - 12 - 24 * k| ≤ 0.5 at hTa
  have hda := abs_sub_round a
  set d : ℤ := round a with hdd
  clear_value d
  have hTd : |(W + d) / 3600 + (l : ℝ) / 15 - 12 - 24 * k| ≤ 1801 / 3600 := by
    rw [abs_le] at *
    norm_num at *
    constructor <;> linarith [hTa.1, hTa.2]
  have hld : |(l : ℝ)| ≤ 360 := by exact_mod_cast H.lon_le
  have W0 : 0 ≤ W := by
    have := (Rat.cast_le (K := ℝ)).mpr H.start
    push_cast at this
    exact this
  have W1 : W ≤ 86400 := by
    have := (Rat.cast_le (K := ℝ)).mpr H.stop
    push_cast at this
    exact this
  have kb : |(k : ℝ)| ≤ 11000 := by exact_mod_cast hk
  have dR : |(d : ℝ)| ≤ 10 ^ 9 := by
    rw [abs_le] at *
    norm_num at *
    constructor <;> linarith [hTd.1, hTd.2]
  have rng : ∀ x : ℝ, |(W + x) / 3600 + (l : ℝ) / 15 - 12 - 24 * k| ≤ 1801 / 3600 → |N - 51544.5 + (W + x) / 86400| ≤ 36524 := by
    intro x hx
    clear hTa hTd dR hda
    rw [abs_le] at *
    norm_num at *
    constructor <;> linarith [hx.1, hx.2, hd'.1, hd'.2]
  have hbd := rng d hTd
  have hba := rng a (hTa.trans (by norm_num))
  have id : Is (lit (d : ℚ) : F64) d := Is.lit_int d (by
    have : |d| ≤ 10 ^ 9 := by exact_mod_cast dR
    omega)
  have H' : SunInput q (lit (d : ℚ)) s l b h d N :=
    ⟨H.date, H.hour, H.minute, H.second, H.start, H.stop, H.lon, H.lat, H.height, H.lon_le, H.lat_le, H.height_le, id,
      by exact_mod_cast dR, H.days, by
      apply (Rat.cast_le (K := ℝ)).mp
      push_cast
      refine le_trans (le_of_eq (congrArg (fun x : ℝ => |x|) ?_)) hbd
      rw [hW]; norm_num; ring⟩
  obtain ⟨c, r, z, x, y, w, C', R, hc, hr, iz, ix, iy, iw, hC', hR, ez, ed, -⟩ := sun_f64 hL p q _ s l b h d N H' h1 h2
  obtain rfl := Except.ok.inj (hC.symm.trans hC')
  rw [Rat.cast_intCast] at hR
  refine ⟨d, c, r, z, x, y, w, ?_, hc, hr, iz, ix, iy, iw, ?_⟩
  · apply (Rat.cast_le (K := ℝ)).mp
    push_cast
    rw [← hW]
    exact hTd
  obtain ⟨R', hR', lo, -⟩ := C100_between p (exactParams q s l b h) gd C hC d N H.days hbd h2'
  obtain rfl := Except.ok.inj (hR.symm.trans hR')
  obtain ⟨R', hR', hzR, hlR, -⟩ := sun_state p (exactParams q s l b h) gd C hC N H.days d hbd
  obtain rfl := Except.ok.inj (hR.symm.trans hR')
  obtain ⟨R', hR', hza, hla, -⟩ := sun_state p (exactParams q s l b h) gd C hC N H.days a hba
  obtain rfl := Except.ok.inj (hra.symm.trans hR')
  have turn := sun_turn p (exactParams q s l b h) gd C hC N H.days hba hbd hra hR
  have dd := (decl_diff (lt_of_lt_of_le (by norm_num) hla) (lt_of_lt_of_le (by norm_num) hlR)).trans turn
  have zz := (ang_diff (upward (exactParams q s l b h).position.lon (exactParams q s l b h).position.lat) _ _).trans turn
  rw [← hza, ← hzR] at zz
  change |(b : ℝ) * (Real.pi / 180) - _| ≤ _ at lo
  change |(_ - |(b : ℝ) * (Real.pi / 180) - _|)| ≤ _ at eza
  generalize (b : ℝ) * (Real.pi / 180) = φ at *
  generalize decl ra.sun_e = Da at *
  generalize decl R.sun_e = Dd at *
  generalize decl _ = D at *
  have t1 := abs_sub_abs_le_abs_sub (φ - D) (φ - Dd)
  have t2 := abs_sub_abs_le_abs_sub (φ - Da) (φ - Dd)
  have t3 := abs_sub_abs_le_abs_sub (φ - Dd) (φ - D)
  rw [show φ - D - (φ - Dd) = -(D - Dd) by ring, abs_neg] at t1
  rw [show φ - Da - (φ - Dd) = -(Da - Dd) by ring, abs_neg] at t2
  rw [show φ - Dd - (φ - D) = D - Dd by ring] at t3
  have ez := abs_le.mp ez
  have zz := abs_le.mp zz
  have eza := abs_le.mp eza
  have hda' : 7.33e-5 * |a - (d : ℝ)| ≤ 3.665e-5 := by
    norm_num at hda ⊢; linarith
  clear hTa hTd hba hbd hd' kb rng turn hlR hla hza hzR H' id dR
  rw [abs_le]
  norm_num at *
  constructor <;> linarith [ez.1, ez.2, zz.1, zz.2, eza.1, eza.2]

/-- The default parameters of the program moved to 60 degrees north, for the next day; a library that exists. -/
example : ∃ (L : Libm F64) (q : SunAngleParameters F64), @LibmAcc L ∧ SunInput q (lit 0) 0 (-120) 60 0 0 54195 ∧
    24 ≤ |(60 : ℚ)| ∧ |(60 : ℚ)| ≤ 90 ∧ |(1 : ℤ)| ≤ 11000 ∧ |(((54195 : ℤ) : ℚ) + ((1 : ℤ) : ℚ)) - 51544 - (-120) / 360| ≤ 36522 := by
  have i0 : Is (lit 0 : F64) 0 := by have := Is.lit_int 0 (by norm_num); push_cast at this; exact this
  have i1 : Is (lit (-120) : F64) (-120) := by have := Is.lit_int (-120) (by norm_num); push_cast at this; exact this
  have i2 : Is (lit 60 : F64) 60 := by have := Is.lit_int 60 (by norm_num); push_cast at this; exact this
  refine ⟨goodLibm, { SunAngleParameters.default with position := ⟨lit (-120), lit 60, lit 0⟩ }, exists_libmAcc,
    ⟨⟨by decide, by decide, by decide⟩, by decide, by decide, i0, by
    norm_num [SunAngleParameters.default], by norm_num [SunAngleParameters.default], i1, i2, i0, by norm_num, by norm_num, by norm_num, i0, by norm_num,
    daysFrom_epoch (by decide), by norm_num [SunAngleParameters.default]⟩, by norm_num, by norm_num, by norm_num, by norm_num [abs_le]⟩

end Verif
