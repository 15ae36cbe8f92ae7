import Verif.Model.Fundargs
import Verif.Props.Common

/-!
# Fundamental arguments: C31
-/

namespace Verif
open Arith F64

/-- A polynomial of degree 4, as published. -/
def poly4 (c0 c1 c2 c3 c4 t : ℝ) : ℝ := c0 + c1 * t + c2 * t ^ 2 + c3 * t ^ 3 + c4 * t ^ 4

theorem turnas_pos : (0 : ℝ) < TURNAS := by unfold TURNAS; norm_num

/-- The shape shared by the five routines: congruent to the polynomial, within one turn of the
polynomial's constant term. -/
theorem fundarg_spec (c0 c1 c2 c3 c4 : ℚ) (t : ℝ) :
    ∃ k : ℤ, fundarg c0 c1 c2 c3 c4 t = (poly4 c0 c1 c2 c3 c4 t - k * 1296000) * AS2R ∧
      |poly4 c0 c1 c2 c3 c4 t - k * 1296000 - c0| < 1296000 := by
  unfold fundarg
  simp only [lit_real, add_real, mul_real, rem_real]
  have hT : (TURNAS : ℝ) = 1296000 := by unfold TURNAS; norm_num
  set x : ℝ := t * (c1 + t * (c2 + t * (c3 + t * c4))) with hx
  have hp : poly4 c0 c1 c2 c3 c4 t = c0 + x := by rw [hx]; unfold poly4; ring
  refine ⟨truncR (x / TURNAS), ?_, ?_⟩
  · rw [hp, hT]; ring
  · have := (rem_real_bound x TURNAS turnas_pos).1
    rw [rem_real] at this
    rw [hp]
    rw [hT] at this ⊢
    have e : (c0 : ℝ) + x - truncR (x / 1296000) * 1296000 - c0
      = x - 1296000 * truncR (x / 1296000) := by ring
    rw [e]; exact this

/-- **C31.** Each of the five arguments equals the published polynomial (arcseconds, converted to radians)
minus a whole number of turns; the result is within one turn of the polynomial's constant term, hence less
than two turns in magnitude. -/
theorem C31_fundamental_arguments (t : ℝ) :
    (∃ k : ℤ, l03 t = (poly4 485868.249036 1717915923.2178 31.8792 0.051635 (-0.00024470) t
      - k * 1296000) * AS2R) ∧
    (∃ k : ℤ, lp03 t = (poly4 1287104.793048 129596581.0481 (-0.5532) 0.000136 (-0.00001149) t
      - k * 1296000) * AS2R) ∧
    (∃ k : ℤ, f03 t = (poly4 335779.526232 1739527262.8478 (-12.7512) (-0.001037) 0.00000417 t
      - k * 1296000) * AS2R) ∧
    (∃ k : ℤ, d03 t = (poly4 1072260.703692 1602961601.2090 (-6.3706) 0.006593 (-0.00003169) t
      - k * 1296000) * AS2R) ∧
    (∃ k : ℤ, om03 t = (poly4 450160.398036 (-6962890.5431) 7.4722 0.007702 (-0.00005939) t
      - k * 1296000) * AS2R) := by
  refine ⟨?_, ?_, ?_, ?_, ?_⟩
  · obtain ⟨k, h, _⟩ := fundarg_spec 485868.249036 1717915923.2178 31.8792 0.051635 (-0.00024470) t
    exact ⟨k, by unfold l03; rw [h]; push_cast; rfl⟩
  · obtain ⟨k, h, _⟩ := fundarg_spec 1287104.793048 129596581.0481 (-0.5532) 0.000136 (-0.00001149) t
    exact ⟨k, by unfold lp03; rw [h]; push_cast; rfl⟩
  · obtain ⟨k, h, _⟩ := fundarg_spec 335779.526232 1739527262.8478 (-12.7512) (-0.001037) 0.00000417 t
    exact ⟨k, by unfold f03; rw [h]; push_cast; rfl⟩
  · obtain ⟨k, h, _⟩ := fundarg_spec 1072260.703692 1602961601.2090 (-6.3706) 0.006593 (-0.00003169) t
    exact ⟨k, by unfold d03; rw [h]; push_cast; rfl⟩
  · obtain ⟨k, h, _⟩ := fundarg_spec 450160.398036 (-6962890.5431) 7.4722 0.007702 (-0.00005939) t
    exact ⟨k, by unfold om03; rw [h]; push_cast; rfl⟩

theorem as2r_pos : (0 : ℝ) < AS2R := by unfold AS2R; norm_num

theorem fundarg_bound (c0 c1 c2 c3 c4 : ℚ) (t : ℝ) (h0 : 0 ≤ c0) (h1 : c0 ≤ 1296000) :
    |fundarg c0 c1 c2 c3 c4 t| < 2 * (1296000 * AS2R) := by
  obtain ⟨k, h, hb⟩ := fundarg_spec c0 c1 c2 c3 c4 t
  have a := as2r_pos
  rw [h, abs_mul, abs_of_pos a, ← mul_assoc]
  have z0 : (0 : ℝ) ≤ c0 := by exact_mod_cast h0
  have z1 : (c0 : ℝ) ≤ 1296000 := by exact_mod_cast h1
  refine mul_lt_mul_of_pos_right ?_ a
  rw [abs_lt] at hb ⊢
  constructor <;> linarith

/-- **C31.** Every argument is less than two turns in magnitude. -/
theorem C31_less_than_two_turns (t : ℝ) :
    |l03 t| < 2 * (1296000 * AS2R) ∧ |lp03 t| < 2 * (1296000 * AS2R) ∧
    |f03 t| < 2 * (1296000 * AS2R) ∧ |d03 t| < 2 * (1296000 * AS2R) ∧
    |om03 t| < 2 * (1296000 * AS2R) :=
  ⟨fundarg_bound _ _ _ _ _ t (by norm_num) (by norm_num),
   fundarg_bound _ _ _ _ _ t (by norm_num) (by norm_num),
   fundarg_bound _ _ _ _ _ t (by norm_num) (by norm_num),
   fundarg_bound _ _ _ _ _ t (by norm_num) (by norm_num),
   fundarg_bound _ _ _ _ _ t (by norm_num) (by norm_num)⟩

/-- **C31**, the reduction to one turn that the cited routine performs is not achieved: at
`t = 0.0007` centuries `l03` exceeds one turn. -/
theorem C31_not_within_one_turn : ∃ t : ℝ, 1296000 * AS2R < l03 t := by
  refine ⟨0.0007, ?_⟩
  unfold l03 fundarg
  simp only [lit_real, add_real, mul_real, rem_real]
  have hT : (TURNAS : ℝ) = 1296000 := by unfold TURNAS; norm_num
  rw [hT]
  have h0 : truncR ((0.0007 * (((1717915923.2178 : ℚ) : ℝ) + 0.0007 * (((31.8792 : ℚ) : ℝ) + 0.0007 *
      (((0.051635 : ℚ) : ℝ) + 0.0007 * ((-0.00024470 : ℚ) : ℝ))))) / 1296000) = 0 := by
    rw [truncR_nonneg (by norm_num), Int.floor_eq_iff]
    norm_num
  rw [h0]
  have a := as2r_pos
  refine mul_lt_mul_of_pos_right ?_ a
  norm_num

/-- The two planetary longitudes are reduced to less than one turn in magnitude, with the sign of the
unreduced value. -/
theorem C31_planet_longitudes (t : ℝ) :
    (|ve03 t| < TWO_PI ∧ ∃ k : ℤ, ve03 t = 3.176146697 + 1021.3285546211 * t - k * TWO_PI) ∧
    (|e03 t| < TWO_PI ∧ ∃ k : ℤ, e03 t = 1.753470314 + 628.3075849991 * t - k * TWO_PI) := by
  have key : ∀ x : ℝ, ∃ k : ℤ, x %. TWO_PI = x - k * TWO_PI :=
    fun x => ⟨truncR (x / TWO_PI), by rw [rem_real]; ring⟩
  unfold ve03 e03
  refine ⟨⟨(rem_real_bound _ _ two_pi_pos).1, ?_⟩, ⟨(rem_real_bound _ _ two_pi_pos).1, ?_⟩⟩
  · obtain ⟨k, h⟩ := key (lit 3.176146697 +. lit 1021.3285546211 *. t)
    refine ⟨k, h.trans ?_⟩
    simp only [lit_real, add_real, mul_real]
    push_cast; rfl
  · obtain ⟨k, h⟩ := key (lit 1.753470314 +. lit 628.3075849991 *. t)
    refine ⟨k, h.trans ?_⟩
    simp only [lit_real, add_real, mul_real]
    push_cast; rfl

-- the reduction is not trivial: a century from J2000.0 it removes 162 turns
example : |(3.176146697 + 1021.3285546211 * 1 : ℝ)| > 162 * TWO_PI := by
  unfold TWO_PI; norm_num

end Verif
