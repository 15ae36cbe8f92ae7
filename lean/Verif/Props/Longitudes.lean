import Verif.Props.Fundargs
import Mathlib.Analysis.Real.Pi.Bounds

/-!
# C129: the fundamental arguments of the Moon, the Sun and the Earth agree
-/

namespace Verif
open Arith

theorem turns_bound (p k : ℝ) (h : |(p - k * 1296000) * AS2R| < 2 * (1296000 * AS2R)) (hp : |p| ≤ 1.8e9) : |k| ≤ 2000 := by
  have a := as2r_pos
  rw [abs_mul, abs_of_pos a, ← mul_assoc] at h
  have h1 := lt_of_mul_lt_mul_right h a.le
  rw [abs_lt] at h1
  rw [abs_le] at hp ⊢
  norm_num at hp
  constructor <;> linarith [h1.1, h1.2, hp.1, hp.2]

theorem poly4_size (c0 c1 c2 c3 c4 t : ℝ) (ht : |t| ≤ 1) (h : |c0| + |c1| + |c2| + |c3| + |c4| ≤ 1.8e9) :
    |poly4 c0 c1 c2 c3 c4 t| ≤ 1.8e9 := by
  have m : ∀ (c : ℝ) (n : ℕ), |c * t ^ n| ≤ |c| := by
    intro c n
    rw [abs_mul, abs_pow]
    exact mul_le_of_le_one_right (abs_nonneg c) (pow_le_one₀ (abs_nonneg t) ht)
  have m1 := m c1 1
  rw [pow_one] at m1
  unfold poly4
  have := abs_add_le (c0 + c1 * t + c2 * t ^ 2 + c3 * t ^ 3) (c4 * t ^ 4)
  have := abs_add_le (c0 + c1 * t + c2 * t ^ 2) (c3 * t ^ 3)
  have := abs_add_le (c0 + c1 * t) (c2 * t ^ 2)
  have := abs_add_le c0 (c1 * t)
  linarith [m c2 2, m c3 3, m c4 4]

theorem turn_error : |2 * Real.pi - 1296000 * AS2R| ≤ 1 / 10 ^ 18 ∧ |2 * Real.pi - TWO_PI| ≤ 1 / 10 ^ 18 := by
  have a := Real.pi_gt_d20
  have b := Real.pi_lt_d20
  unfold AS2R TWO_PI
  simp only [lit_real]
  constructor <;> rw [abs_le] <;> norm_num at a b ⊢ <;> constructor <;> linarith

theorem planet_turns (x T : ℝ) (k : ℤ) (hT : T = TWO_PI) (h : |x - k * T| < T) (hx : |x| ≤ 700) : |(k : ℝ)| ≤ 2000 := by
  have e : T = 6.283185307179586476925287 := by rw [hT]; unfold TWO_PI; simp only [lit_real]; norm_num
  rw [abs_lt, e] at h
  rw [abs_le] at hx ⊢
  norm_num at h
  constructor <;> linarith [h.1, h.2, hx.1, hx.2]

theorem err_bound (k a b : ℝ) (hk : |k| ≤ 8000) (h : |a - b| ≤ 1 / 10 ^ 18) : |k * a - k * b| ≤ 1 / 10 ^ 14 := by
  rw [← mul_sub, abs_mul]
  exact (mul_le_mul hk h (abs_nonneg _) (by norm_num)).trans (by norm_num)

/-- **C129.** In exact arithmetic, within a century of J2000.0, the mean longitude of the Sun made of the arguments of the Moon
(argument of latitude plus node, less elongation) is, up to whole turns, the mean longitude of the Earth plus half a turn plus the
general precession, within a third of a second of arc. -/
theorem C129_sun (t : ℝ) (ht : |t| ≤ 1) :
    ∃ m : ℤ, |f03 t + om03 t - d03 t - (e03 t + Real.pi + pa03 t) - m * (2 * Real.pi)| ≤ 0.33 * (Real.pi / 648000) := by
  obtain ⟨-, -, ⟨kf, hf⟩, ⟨kd, hd⟩, ⟨ko, ho⟩⟩ := C31_fundamental_arguments t
  obtain ⟨-, -, bf, bd, bo⟩ := C31_less_than_two_turns t
  obtain ⟨-, be, ke, he⟩ := C31_planet_longitudes t
  rw [hf] at bf
  rw [hd] at bd
  rw [ho] at bo
  rw [he] at be
  have nf := turns_bound _ _ bf (poly4_size _ _ _ _ _ t ht (by norm_num [abs_of_pos]))
  have nd := turns_bound _ _ bd (poly4_size _ _ _ _ _ t ht (by norm_num [abs_of_pos]))
  have no := turns_bound _ _ bo (poly4_size _ _ _ _ _ t ht (by norm_num [abs_of_pos]))
  have ne := planet_turns _ _ ke rfl be (by rw [abs_le] at ht ⊢; norm_num; constructor <;> linarith [ht.1, ht.2])
  have nk : |(kf : ℝ) + ko - kd| ≤ 8000 := by
    rw [abs_le] at nf nd no ⊢
    constructor <;> linarith [nf.1, nf.2, nd.1, nd.2, no.1, no.2]
  have e1 := err_bound _ _ _ nk turn_error.1
  have e2 := err_bound (ke : ℝ) _ _ (by linarith) turn_error.2
  have ep : pa03 t = (0.024381750 + 0.00000538691 * t) * t := by
    unfold pa03; simp only [lit_real, add_real, mul_real]; norm_num
  refine ⟨ke - (kf + ko - kd) - 1, ?_⟩
  rw [hf, hd, ho, he, ep]
  push_cast
  have a := Real.pi_gt_d20
  have b := Real.pi_lt_d20
  have pw : ∀ n : ℕ, |t ^ n| ≤ 1 := fun n => by rw [abs_pow]; exact pow_le_one₀ (abs_nonneg t) ht
  have p2 := pw 2
  have p3 := pw 3
  have p4 := pw 4
  have eA : (AS2R : ℝ) = 4.848136811095359935899141e-6 := by unfold AS2R; simp only [lit_real]; norm_num
  have X : |(poly4 335779.526232 1739527262.8478 (-12.7512) (-0.001037) 0.00000417 t +
      poly4 450160.398036 (-6962890.5431) 7.4722 0.007702 (-0.00005939) t -
      poly4 1072260.703692 1602961601.2090 (-6.3706) 0.006593 (-0.00003169) t) * AS2R -
      (1.753470314 + 628.3075849991 * t) + Real.pi - (0.024381750 + 0.00000538691 * t) * t| ≤ 1.58e-6 := by
    rw [eA, show (0.024381750 + 0.00000538691 * t) * t = 0.024381750 * t + 0.00000538691 * t ^ 2 by ring]
    unfold poly4
    generalize t ^ 2 = q2 at *
    generalize t ^ 3 = q3 at *
    generalize t ^ 4 = q4 at *
    rw [abs_le] at ht p2 p3 p4 ⊢
    clear pw ep he ho hd hf be bf bd bo e1 e2
    obtain ⟨h1, h2⟩ := ht
    obtain ⟨h3, h4⟩ := p2
    obtain ⟨h5, h6⟩ := p3
    obtain ⟨h7, h8⟩ := p4
    norm_num at a b ⊢
    constructor <;> linarith
  clear hf hd ho he bf bd bo be
  generalize poly4 335779.526232 1739527262.8478 (-12.7512) (-0.001037) 0.00000417 t = x1 at *
  generalize poly4 450160.398036 (-6962890.5431) 7.4722 0.007702 (-0.00005939) t = x2 at *
  generalize poly4 1072260.703692 1602961601.2090 (-6.3706) 0.006593 (-0.00003169) t = x3 at *
  have split : (x1 - kf * 1296000) * AS2R + (x2 - ko * 1296000) * AS2R - (x3 - kd * 1296000) * AS2R -
      (1.753470314 + 628.3075849991 * t - ke * TWO_PI + Real.pi + (0.024381750 + 0.00000538691 * t) * t) -
      (ke - (kf + ko - kd) - 1) * (2 * Real.pi) =
      ((x1 + x2 - x3) * AS2R - (1.753470314 + 628.3075849991 * t) + Real.pi - (0.024381750 + 0.00000538691 * t) * t) +
      (((kf : ℝ) + ko - kd) * (2 * Real.pi) - (kf + ko - kd) * (1296000 * AS2R)) - (ke * (2 * Real.pi) - ke * TWO_PI) := by ring
  rw [split]
  refine (abs_sub _ _).trans ((add_le_add (abs_add_le _ _) le_rfl).trans ((add_le_add (add_le_add X e1) e2).trans ?_))
  norm_num at a ⊢
  linarith

/-- **C129.** And the longitude of the perihelion, the mean longitude of the Earth plus the general precession less the mean anomaly of
the Sun, is the published 102.93735° + 1.71946° t + 0.00046° t² within 0.4 seconds of arc. -/
theorem C129_perihelion (t : ℝ) (ht : |t| ≤ 1) :
    ∃ m : ℤ, |e03 t + pa03 t - lp03 t - (102.93735 + 1.71946 * t + 0.00046 * t ^ 2) * (Real.pi / 180) - m * (2 * Real.pi)| ≤
      0.4 * (Real.pi / 648000) := by
  obtain ⟨-, ⟨kl, hl⟩, -⟩ := C31_fundamental_arguments t
  obtain ⟨-, bl, -⟩ := C31_less_than_two_turns t
  obtain ⟨-, be, ke, he⟩ := C31_planet_longitudes t
  rw [hl] at bl
  rw [he] at be
  have nl := turns_bound _ _ bl (poly4_size _ _ _ _ _ t ht (by norm_num [abs_of_pos]))
  have ne := planet_turns _ _ ke rfl be (by rw [abs_le] at ht ⊢; norm_num; constructor <;> linarith [ht.1, ht.2])
  have e1 := err_bound (kl : ℝ) _ _ (by linarith) turn_error.1
  have e2 := err_bound (ke : ℝ) _ _ (by linarith) turn_error.2
  have ep : pa03 t = (0.024381750 + 0.00000538691 * t) * t := by
    unfold pa03; simp only [lit_real, add_real, mul_real]; norm_num
  refine ⟨kl - ke - 1, ?_⟩
  rw [hl, he, ep]
  push_cast
  have a := Real.pi_gt_d20
  have b := Real.pi_lt_d20
  have pw : ∀ n : ℕ, |t ^ n| ≤ 1 := fun n => by rw [abs_pow]; exact pow_le_one₀ (abs_nonneg t) ht
  have p2 := pw 2
  have p3 := pw 3
  have p4 := pw 4
  have eA : (AS2R : ℝ) = 4.848136811095359935899141e-6 := by unfold AS2R; simp only [lit_real]; norm_num
  -- `π` in the products with powers of `t` is replaced by a decimal fraction
  obtain ⟨δ, hδ⟩ : ∃ δ, δ = Real.pi - 3.14159265358979323846 := ⟨_, rfl⟩
  have d0 : |δ| ≤ 1e-18 := by rw [hδ, abs_le]; norm_num at a b ⊢; constructor <;> linarith
  have dt : |δ * t| ≤ 1e-18 := by rw [abs_mul]; exact (mul_le_mul d0 ht (abs_nonneg _) (by norm_num)).trans (by norm_num)
  have dt2 : |δ * t ^ 2| ≤ 1e-18 := by rw [abs_mul]; exact (mul_le_mul d0 p2 (abs_nonneg _) (by norm_num)).trans (by norm_num)
  have epi : Real.pi = 3.14159265358979323846 + δ := by rw [hδ]; ring
  have X : |(1.753470314 + 628.3075849991 * t) + (0.024381750 + 0.00000538691 * t) * t -
      poly4 1287104.793048 129596581.0481 (-0.5532) 0.000136 (-0.00001149) t * AS2R -
      (102.93735 + 1.71946 * t + 0.00046 * t ^ 2) * (Real.pi / 180) + 2 * Real.pi| ≤ 1.9e-6 := by
    rw [eA, epi, show (0.024381750 + 0.00000538691 * t) * t = 0.024381750 * t + 0.00000538691 * t ^ 2 by ring,
      show (102.93735 + 1.71946 * t + 0.00046 * t ^ 2) * ((3.14159265358979323846 + δ) / 180) =
        (102.93735 + 1.71946 * t + 0.00046 * t ^ 2) * (3.14159265358979323846 / 180) +
        (102.93735 / 180 * δ + 1.71946 / 180 * (δ * t) + 0.00046 / 180 * (δ * t ^ 2)) by ring]
    unfold poly4
    clear pw ep he hl be bl e1 e2 epi hδ
    generalize δ * t ^ 2 = r2 at *
    generalize δ * t = r1 at *
    generalize t ^ 2 = q2 at *
    generalize t ^ 3 = q3 at *
    generalize t ^ 4 = q4 at *
    rw [abs_le] at ht p2 p3 p4 d0 dt dt2 ⊢
    obtain ⟨h1, h2⟩ := ht
    obtain ⟨h3, h4⟩ := p2
    obtain ⟨h5, h6⟩ := p3
    obtain ⟨h7, h8⟩ := p4
    obtain ⟨g1, g2⟩ := d0
    obtain ⟨g3, g4⟩ := dt
    obtain ⟨g5, g6⟩ := dt2
    norm_num at g1 g2 g3 g4 g5 g6 ⊢
    constructor <;> linarith
  clear hl he bl be epi
  generalize poly4 1287104.793048 129596581.0481 (-0.5532) 0.000136 (-0.00001149) t = x at *
  have split : 1.753470314 + 628.3075849991 * t - ke * TWO_PI + (0.024381750 + 0.00000538691 * t) * t - (x - kl * 1296000) * AS2R -
      (102.93735 + 1.71946 * t + 0.00046 * t ^ 2) * (Real.pi / 180) - (kl - ke - 1) * (2 * Real.pi) =
      ((1.753470314 + 628.3075849991 * t) + (0.024381750 + 0.00000538691 * t) * t - x * AS2R -
      (102.93735 + 1.71946 * t + 0.00046 * t ^ 2) * (Real.pi / 180) + 2 * Real.pi) +
      (ke * (2 * Real.pi) - ke * TWO_PI) - (kl * (2 * Real.pi) - kl * (1296000 * AS2R)) := by ring
  rw [split]
  refine (abs_sub _ _).trans ((add_le_add (abs_add_le _ _) le_rfl).trans ((add_le_add (add_le_add X e2) e1).trans ?_))
  norm_num at a ⊢
  linarith

/-- Such dates. -/
example : |(0 : ℝ)| ≤ 1 ∧ |(-1 : ℝ)| ≤ 1 := by norm_num

end Verif
