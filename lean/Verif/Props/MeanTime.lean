import Verif.Props.Longitudes
import Verif.Props.EarthAngle

/-!
# C130: UT1 is mean solar time
-/

namespace Verif
open Arith

/-- **C130.** In exact arithmetic, within a century of J2000.0, mean sidereal time (the Earth rotation angle plus the published precession
in right ascension, `4612.156534 T + 1.3915817 T²` seconds of arc) less UT1 is the mean longitude of the Sun, taken from the arguments of
the Moon and lessened by 20.5 seconds of arc of aberration, up to whole turns within 1.1 seconds of arc (0.08 seconds of time). -/
theorem C130_mean_time (a b d T : ℝ) (hd : d = a + b - 2451545) (hT : T = d / 36525) (h : |T| ≤ 1) :
    ∃ m : ℤ, |rotationAngle (a, b) + (4612.156534 * T + 1.3915817 * T ^ 2) * (Real.pi / 648000) - d * (2 * Real.pi) -
      (f03 T + om03 T - d03 T - 20.5 * (Real.pi / 648000)) - m * (2 * Real.pi)| ≤ 1.1 * (Real.pi / 648000) := by
  obtain ⟨-, -, ⟨kf, hf⟩, ⟨kd, hdd⟩, ⟨ko, ho⟩⟩ := C31_fundamental_arguments T
  obtain ⟨-, -, bf, bd, bo⟩ := C31_less_than_two_turns T
  obtain ⟨r0, r1, k, hr⟩ := C32_earth_rotation_angle a b
  rw [← hd] at hr
  rw [hf] at bf
  rw [hdd] at bd
  rw [ho] at bo
  have nf := turns_bound _ _ bf (poly4_size _ _ _ _ _ T h (by norm_num [abs_of_pos]))
  have nd := turns_bound _ _ bd (poly4_size _ _ _ _ _ T h (by norm_num [abs_of_pos]))
  have no := turns_bound _ _ bo (poly4_size _ _ _ _ _ T h (by norm_num [abs_of_pos]))
  have nk : |(kf : ℝ) + ko - kd| ≤ 8000 := by
    rw [abs_le] at nf nd no ⊢
    constructor <;> linarith [nf.1, nf.2, nd.1, nd.2, no.1, no.2]
  have e1 := err_bound _ _ _ nk turn_error.1
  have dT : d = 36525 * T := by rw [hT]; ring
  have pT : (0 : ℝ) < TWO_PI := two_pi_pos
  have e2 : |(d + k) * (2 * Real.pi - TWO_PI)| ≤ 1 / 10 ^ 14 := by
    have q : |d + k| ≤ 1000 := by
      rw [hr] at r0 r1
      have i0 : 0 ≤ 0.7790572732640 + 1.00273781191135448 * d + k := by
        by_contra hn
        push Not at hn
        nlinarith
      have i1 : 0.7790572732640 + 1.00273781191135448 * d + k < 1 := by
        by_contra hn
        push Not at hn
        nlinarith
      rw [abs_le] at h ⊢
      rw [dT] at i0 i1 ⊢
      norm_num at i0 i1
      constructor <;> linarith [h.1, h.2]
    rw [abs_mul]
    exact (mul_le_mul q turn_error.2 (abs_nonneg _) (by norm_num)).trans (by norm_num)
  have pw : ∀ n : ℕ, |T ^ n| ≤ 1 := fun n => by rw [abs_pow]; exact pow_le_one₀ (abs_nonneg T) h
  have p2 := pw 2
  have p3 := pw 3
  have p4 := pw 4
  have tan : -2 * T - 1 ≤ T ^ 2 := by nlinarith [sq_nonneg (T + 1)]
  have e3 : |(4612.156534 * T + 1.3915817 * T ^ 2 + 20.5) * (Real.pi / 648000 - AS2R)| ≤ 1 / 10 ^ 14 := by
    have q : |4612.156534 * T + 1.3915817 * T ^ 2 + 20.5| ≤ 5000 := by
      rw [abs_le] at h p2 ⊢
      norm_num
      constructor <;> linarith [h.1, h.2, p2.1, p2.2]
    have r : |Real.pi / 648000 - AS2R| ≤ 1 / 10 ^ 18 := by
      have := turn_error.1
      rw [abs_le] at this ⊢
      constructor <;> linarith [this.1, this.2]
    rw [abs_mul]
    exact (mul_le_mul q r (abs_nonneg _) (by norm_num)).trans (by norm_num)
  have hpi := Real.pi_gt_d20
  have hpi' := Real.pi_lt_d20
  have eA : (AS2R : ℝ) = 4.848136811095359935899141e-6 := by unfold AS2R; simp only [lit_real]; norm_num
  have eT : (TWO_PI : ℝ) = 6.283185307179586476925287 := by unfold TWO_PI; simp only [lit_real]; norm_num
  refine ⟨k + (kf + ko - kd) + 1, ?_⟩
  have X : |TWO_PI * (0.7790572732640 + 0.00273781191135448 * d) + (4612.156534 * T + 1.3915817 * T ^ 2 + 20.5) * AS2R -
      (poly4 335779.526232 1739527262.8478 (-12.7512) (-0.001037) 0.00000417 T +
      poly4 450160.398036 (-6962890.5431) 7.4722 0.007702 (-0.00005939) T -
      poly4 1072260.703692 1602961601.2090 (-6.3706) 0.006593 (-0.00003169) T) * AS2R - 2 * Real.pi| ≤ 5.3e-6 := by
    rw [eA, eT, dT]
    unfold poly4
    clear pw hr hf hdd ho bf bd bo e1 e2 e3 hT hd dT
    generalize T ^ 2 = q2 at *
    generalize T ^ 3 = q3 at *
    generalize T ^ 4 = q4 at *
    rw [abs_le] at h p2 p3 p4 ⊢
    obtain ⟨h1, h2⟩ := h
    obtain ⟨h3, h4⟩ := p2
    obtain ⟨h5, h6⟩ := p3
    obtain ⟨h7, h8⟩ := p4
    norm_num at hpi hpi' ⊢
    constructor <;> linarith
  rw [hf, hdd, ho, hr]
  push_cast
  clear hf hdd ho bf bd bo hr r0 r1
  generalize poly4 335779.526232 1739527262.8478 (-12.7512) (-0.001037) 0.00000417 T = x1 at *
  generalize poly4 450160.398036 (-6962890.5431) 7.4722 0.007702 (-0.00005939) T = x2 at *
  generalize poly4 1072260.703692 1602961601.2090 (-6.3706) 0.006593 (-0.00003169) T = x3 at *
  have split : TWO_PI * (0.7790572732640 + 1.00273781191135448 * d) + k * TWO_PI +
      (4612.156534 * T + 1.3915817 * T ^ 2) * (Real.pi / 648000) - d * (2 * Real.pi) -
      ((x1 - kf * 1296000) * AS2R + (x2 - ko * 1296000) * AS2R - (x3 - kd * 1296000) * AS2R - 20.5 * (Real.pi / 648000)) -
      (k + (kf + ko - kd) + 1) * (2 * Real.pi) =
      (TWO_PI * (0.7790572732640 + 0.00273781191135448 * d) + (4612.156534 * T + 1.3915817 * T ^ 2 + 20.5) * AS2R -
        (x1 + x2 - x3) * AS2R - 2 * Real.pi) + (4612.156534 * T + 1.3915817 * T ^ 2 + 20.5) * (Real.pi / 648000 - AS2R) -
      (d + k) * (2 * Real.pi - TWO_PI) - (((kf : ℝ) + ko - kd) * (2 * Real.pi) - (kf + ko - kd) * (1296000 * AS2R)) := by ring
  rw [split]
  refine (abs_sub _ _).trans ((add_le_add ((abs_sub _ _).trans (add_le_add ((abs_add_le _ _).trans (add_le_add X e3)) e2)) e1).trans ?_)
  norm_num at hpi ⊢
  linarith

/-- J2000.0 itself. -/
example : |(((2451545 : ℝ) + 0 - 2451545) / 36525)| ≤ 1 := by norm_num

end Verif
