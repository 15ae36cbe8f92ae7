import Verif.Props.FramesAccuracy

/-!
# C125: the mean obliquity
-/

namespace Verif
open Arith F64

theorem obliquity_real (a b : ℝ) : meanObliquity (a, b) = 4.848136811095359935899141e-6 * (84381.448 - 46.8150 * ((a + b - 2451545) / 36525) -
    0.00059 * ((a + b - 2451545) / 36525) ^ 2 + 0.001813 * ((a + b - 2451545) / 36525) ^ 3) := by
  unfold meanObliquity
  rw [centuries_real]
  simp only [AS2R, lit_real, add_real, mul_real]
  push_cast
  ring

/-- **C125.** In exact arithmetic the mean obliquity is 84381.448 seconds of arc at J2000.0, falls at every date up to 92 centuries
from it, by 46.8 seconds of arc a century within one century, and rises at every date 93 centuries or more after it: the polynomial
is no longer that of the Earth. -/
theorem C125_falling (a b a' b' t t' : ℝ) (ht : t = (a + b - 2451545) / 36525) (ht' : t' = (a' + b' - 2451545) / 36525) (as : ℝ)
    (has : as = 4.848136811095359935899141e-6) :
    (t = 0 → meanObliquity (a, b) = 84381.448 * as) ∧
    (|t| ≤ 92 → |t'| ≤ 92 → t < t' → meanObliquity (a', b') < meanObliquity (a, b)) ∧
    (|t| ≤ 1 → |t'| ≤ 1 → t ≤ t' → 46.8 * as * (t' - t) ≤ meanObliquity (a, b) - meanObliquity (a', b') ∧
      meanObliquity (a, b) - meanObliquity (a', b') ≤ 46.82 * as * (t' - t)) ∧
    (93 ≤ t → t < t' → meanObliquity (a, b) < meanObliquity (a', b')) := by
  have hp : 0 < as := by rw [has]; norm_num
  have e : meanObliquity (a, b) - meanObliquity (a', b') =
      as * (t' - t) * (46.8150 + 0.00059 * (t + t') - 0.001813 * (t ^ 2 + t * t' + t' ^ 2)) := by
    rw [obliquity_real, obliquity_real, ← ht, ← ht', has]; ring
  have bound : ∀ M : ℝ, |t| ≤ M → |t'| ≤ M → |t ^ 2 + t * t' + t' ^ 2| ≤ 3 * M ^ 2 ∧ |t + t'| ≤ 2 * M := by
    intro M h h'
    have m0 : 0 ≤ M := (abs_nonneg t).trans h
    have p1 : |t ^ 2| ≤ M ^ 2 := by rw [abs_pow]; exact pow_le_pow_left₀ (abs_nonneg _) h 2
    have p2 : |t' ^ 2| ≤ M ^ 2 := by rw [abs_pow]; exact pow_le_pow_left₀ (abs_nonneg _) h' 2
    have p3 : |t * t'| ≤ M * M := by rw [abs_mul]; exact mul_le_mul h h' (abs_nonneg _) m0
    have q1 := abs_add_le (t ^ 2 + t * t') (t' ^ 2)
    have q2 := abs_add_le (t ^ 2) (t * t')
    have q3 := abs_add_le t t'
    constructor <;> nlinarith
  refine ⟨fun h0 => ?_, fun h h' hl => ?_, fun h h' hl => ?_, fun h hl => ?_⟩
  · rw [obliquity_real, ← ht, h0, has]; ring
  · obtain ⟨u, v⟩ := bound 92 h h'
    rw [abs_le] at u v
    have : 0 < as * (t' - t) * (46.8150 + 0.00059 * (t + t') - 0.001813 * (t ^ 2 + t * t' + t' ^ 2)) := by
      refine mul_pos (mul_pos hp (by linarith)) ?_
      norm_num at *; linarith [u.2, v.1]
    linarith
  · obtain ⟨u, v⟩ := bound 1 h h'
    rw [abs_le] at u v
    rw [e]
    have k0 : 0 ≤ as * (t' - t) := mul_nonneg hp.le (by linarith)
    constructor
    · rw [show 46.8 * as * (t' - t) = as * (t' - t) * 46.8 by ring]
      refine mul_le_mul_of_nonneg_left ?_ k0
      norm_num at *; linarith [u.2, v.1]
    · rw [show 46.82 * as * (t' - t) = as * (t' - t) * 46.82 by ring]
      refine mul_le_mul_of_nonneg_left ?_ k0
      norm_num at *; linarith [u.1, v.2, sq_nonneg (t + t'), sq_nonneg t, sq_nonneg t']
  · have : 0 < as * (t' - t) * (0.001813 * (t ^ 2 + t * t' + t' ^ 2) - 46.8150 - 0.00059 * (t + t')) := by
      refine mul_pos (mul_pos hp (by linarith)) ?_
      have h1 : 93 * t ≤ t ^ 2 := by nlinarith
      have h2 : 93 * t' ≤ t' ^ 2 := by nlinarith
      have h3 : (93 : ℝ) * 93 ≤ t * t' := mul_le_mul h (by linarith) (by norm_num) (by linarith)
      norm_num at *; linarith
    linarith

/-- **C125.** In binary64 the mean obliquity of a date within a century of J2000.0, its first part of at most four million days,
is within `4e-16` radians of the exact one, and of two such dates at least a quarter of a second apart the later has the smaller. -/
theorem C125_falling_f64 (x y x' y' : F64) (a b a' b' : ℚ) (hx : Is x a) (hy : Is y b) (hx' : Is x' a') (hy' : Is y' b')
    (ha : |a| ≤ 4000000) (h : |a + b - 2451545| ≤ 36525) (ha' : |a'| ≤ 4000000) (h' : |a' + b' - 2451545| ≤ 36525) :
    ∃ e e' : ℚ, Is (meanObliquity (x, y)) e ∧ Is (meanObliquity (x', y')) e' ∧
      |(e : ℝ) - meanObliquity ((a : ℝ), (b : ℝ))| ≤ 4 / 10 ^ 16 ∧ (a + b + 0.25 / 86400 ≤ a' + b' → e' < e) := by
  have key : ∀ (x y : F64) (a b : ℚ), Is x a → Is y b → |a| ≤ 4000000 → |a + b - 2451545| ≤ 36525 →
      Near (meanObliquity (x, y)) (meanObliquity ((a : ℝ), (b : ℝ))) (4 / 10 ^ 16) := by
    intro x y a b hx hy ha h
    have h1 : |(a : ℝ) + b - 2451545| ≤ 36525 := by exact_mod_cast h
    have hT := (centuries_near hx hy (by exact_mod_cast ha) h1).mono (E := 3 / 10 ^ 14) (M := 1) (by norm_num)
    exact (obliquity_nb (hT.congr (centuries_real ((a : ℝ), (b : ℝ))).symm)).near
  obtain ⟨e, he, de⟩ := key x y a b hx hy ha h
  obtain ⟨e', he', de'⟩ := key x' y' a' b' hx' hy' ha' h'
  refine ⟨e, e', he, he', de, fun hlt => ?_⟩
  have hr : (a : ℝ) + b + 0.25 / 86400 ≤ a' + b' := by
    have := (Rat.cast_le (K := ℝ)).mpr hlt
    push_cast at this
    norm_num at this ⊢
    exact this
  have t1 : |((a : ℝ) + b - 2451545) / 36525| ≤ 1 := by
    have : |(a : ℝ) + b - 2451545| ≤ 36525 := by exact_mod_cast h
    rw [abs_div, abs_of_pos (by norm_num : (0 : ℝ) < 36525)]
    exact div_le_one_of_le₀ this (by norm_num)
  have t2 : |((a' : ℝ) + b' - 2451545) / 36525| ≤ 1 := by
    have : |(a' : ℝ) + b' - 2451545| ≤ 36525 := by exact_mod_cast h'
    rw [abs_div, abs_of_pos (by norm_num : (0 : ℝ) < 36525)]
    exact div_le_one_of_le₀ this (by norm_num)
  have k := ((C125_falling (a : ℝ) b a' b' _ _ rfl rfl _ rfl).2.2.1 t1 t2 (by
    refine div_le_div_of_nonneg_right ?_ (by norm_num); norm_num at hr; linarith)).1
  rw [abs_le] at de de'
  have : (e' : ℝ) < e := by
    generalize meanObliquity ((a : ℝ), (b : ℝ)) = X at *
    generalize meanObliquity ((a' : ℝ), (b' : ℝ)) = Y at *
    clear t1 t2
    norm_num at k de de' hr
    linarith [de.1, de'.2]
  exact_mod_cast this

/-- J2000.0 and the day after. -/
example : ∃ x y y' : F64, Is x 2451545 ∧ Is y 0 ∧ Is y' 1 ∧ |(2451545 : ℚ)| ≤ 4000000 ∧ |(2451545 + 1 - 2451545 : ℚ)| ≤ 36525 ∧
    (2451545 : ℚ) + 0 + 0.25 / 86400 ≤ 2451545 + 1 := by
  have i0 : Is (lit 2451545 : F64) 2451545 := by have := Is.lit_int 2451545 (by norm_num); push_cast at this; exact this
  have i1 : Is (lit 0 : F64) 0 := by have := Is.lit_int 0 (by norm_num); push_cast at this; exact this
  have i2 : Is (lit 1 : F64) 1 := by have := Is.lit_int 1 (by norm_num); push_cast at this; exact this
  exact ⟨_, _, _, i0, i1, i2, by norm_num, by norm_num, by norm_num⟩

end Verif
