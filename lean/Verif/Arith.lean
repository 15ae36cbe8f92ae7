import Verif.Float.F64
import Mathlib.Analysis.SpecialFunctions.Trigonometric.Inverse
import Mathlib.Analysis.SpecialFunctions.Trigonometric.Arctan
import Mathlib.Analysis.SpecialFunctions.Complex.Arg

/-!
# The arithmetic interface used by the model

The model of the Rust code is written once, over any type with the operations below, and used at
`ℝ` (exact arithmetic) and at `F64` (what the compiled program does).
-/

namespace Verif

/-- The `f64` operations used by the code, other than transcendental functions. -/
class Arith (α : Type) where
  /-- a decimal literal -/
  lit : ℚ → α
  /-- `std::f64::consts::PI` -/
  pi : α
  /-- integer `as f64` -/
  ofInt : ℤ → α
  add : α → α → α
  sub : α → α → α
  mul : α → α → α
  div : α → α → α
  /-- `%` (`fmod`) -/
  rem : α → α → α
  neg : α → α
  abs : α → α
  sqrt : α → α
  floor : α → α
  round : α → α
  trunc : α → α
  lt : α → α → Bool
  le : α → α → Bool
  /-- saturating cast to an integer type with the given bounds (`as i32`, `as u32`) -/
  castSat : ℤ → ℤ → α → ℤ

/-- The transcendental functions used by the code. -/
class Libm (α : Type) where
  sin : α → α
  cos : α → α
  tan : α → α
  acos : α → α
  asin : α → α
  atan : α → α
  /-- `y.atan2(x)`, first argument `y` -/
  atan2 : α → α → α

infixl:65 " +. " => Arith.add
infixl:65 " -. " => Arith.sub
infixl:70 " *. " => Arith.mul
infixl:70 " /. " => Arith.div
infixl:70 " %. " => Arith.rem
infix:50 " <. " => Arith.lt
infix:50 " <=. " => Arith.le

/-! ### Exact arithmetic -/

/-- Truncation towards zero. -/
noncomputable def truncR (x : ℝ) : ℤ := if 0 ≤ x then ⌊x⌋ else ⌈x⌉

/-- Nearest integer, halves away from zero. -/
noncomputable def roundR (x : ℝ) : ℤ := if 0 ≤ x then ⌊x + 1 / 2⌋ else ⌈x - 1 / 2⌉

open Classical in
noncomputable instance : Arith ℝ where
  lit q := (q : ℝ)
  pi := Real.pi
  ofInt z := (z : ℝ)
  add x y := x + y
  sub x y := x - y
  mul x y := x * y
  div x y := x / y
  rem x y := x - y * truncR (x / y)
  neg x := -x
  abs x := |x|
  sqrt x := Real.sqrt x
  floor x := ⌊x⌋
  round x := roundR x
  trunc x := truncR x
  lt x y := decide (x < y)
  le x y := decide (x ≤ y)
  castSat lo hi x := max lo (min hi (truncR x))

/-- Mathlib's functions; `atan2 y x` is the argument of `x + iy`, in `(-π, π]`, 0 at the origin. -/
noncomputable instance : Libm ℝ where
  sin := Real.sin
  cos := Real.cos
  tan := Real.tan
  acos := Real.arccos
  asin := Real.arcsin
  atan := Real.arctan
  atan2 y x := Complex.arg ⟨x, y⟩

section real
variable (x y : ℝ)
@[simp] theorem lit_real (q : ℚ) : (Arith.lit q : ℝ) = (q : ℝ) := rfl
@[simp] theorem pi_real : (Arith.pi : ℝ) = Real.pi := rfl
@[simp] theorem ofInt_real (z : ℤ) : (Arith.ofInt z : ℝ) = (z : ℝ) := rfl
@[simp] theorem add_real : x +. y = x + y := rfl
@[simp] theorem sub_real : x -. y = x - y := rfl
@[simp] theorem mul_real : x *. y = x * y := rfl
@[simp] theorem div_real : x /. y = x / y := rfl
@[simp] theorem neg_real : Arith.neg x = -x := rfl
@[simp] theorem abs_real : Arith.abs x = |x| := rfl
@[simp] theorem sqrt_real : Arith.sqrt x = Real.sqrt x := rfl
theorem rem_real : x %. y = x - y * truncR (x / y) := rfl
@[simp] theorem trunc_real : Arith.trunc x = (truncR x : ℝ) := rfl
@[simp] theorem round_real : Arith.round x = (roundR x : ℝ) := rfl
@[simp] theorem floor_real : Arith.floor x = (⌊x⌋ : ℝ) := rfl
@[simp] theorem castSat_real (lo hi : ℤ) :
    Arith.castSat lo hi x = max lo (min hi (truncR x)) := rfl
@[simp] theorem lt_real : (x <. y) = true ↔ x < y := by
  change decide (x < y) = true ↔ _; simp
@[simp] theorem le_real : (x <=. y) = true ↔ x ≤ y := by
  change decide (x ≤ y) = true ↔ _; simp
@[simp] theorem lt_real_false : (x <. y) = false ↔ y ≤ x := by
  change decide (x < y) = false ↔ _; simp
@[simp] theorem le_real_false : (x <=. y) = false ↔ y < x := by
  change decide (x ≤ y) = false ↔ _; simp
@[simp] theorem sin_real : Libm.sin x = Real.sin x := rfl
@[simp] theorem cos_real : Libm.cos x = Real.cos x := rfl
@[simp] theorem tan_real : Libm.tan x = Real.tan x := rfl
@[simp] theorem acos_real : Libm.acos x = Real.arccos x := rfl
@[simp] theorem asin_real : Libm.asin x = Real.arcsin x := rfl
@[simp] theorem atan_real : Libm.atan x = Real.arctan x := rfl
theorem atan2_real : Libm.atan2 y x = Complex.arg ⟨x, y⟩ := rfl
end real

theorem truncR_int (z : ℤ) : truncR (z : ℝ) = z := by
  unfold truncR; split <;> simp

theorem truncR_nonneg {x : ℝ} (h : 0 ≤ x) : truncR x = ⌊x⌋ := if_pos h

theorem roundR_int (z : ℤ) : roundR (z : ℝ) = z := by
  unfold roundR
  split
  · rw [Int.floor_eq_iff]; constructor <;> linarith
  · rw [Int.ceil_eq_iff]; constructor <;> linarith

/-- The truncated remainder has the sign of the dividend and is smaller than the divisor. -/
theorem rem_real_bound (x y : ℝ) (hy : 0 < y) :
    |x %. y| < y ∧ (0 ≤ x → 0 ≤ x %. y) ∧ (x ≤ 0 → x %. y ≤ 0) := by
  rw [rem_real]
  unfold truncR
  have hx : x = y * (x / y) := by field_simp
  set q := x / y with hq
  split
  · rename_i h
    have h1 := Int.floor_le q
    have h2 := Int.lt_floor_add_one q
    have h0 : 0 ≤ x := by rw [hx]; positivity
    have e1 : 0 ≤ x - y * ⌊q⌋ := by nlinarith
    have e2 : x - y * ⌊q⌋ < y := by nlinarith
    refine ⟨by rw [abs_of_nonneg e1]; exact e2, fun _ => e1, fun hx0 => ?_⟩
    have : x = 0 := le_antisymm hx0 h0
    have hq0 : q = 0 := by rw [hq, this]; simp
    rw [hq0, this]; simp
  · rename_i h
    push Not at h
    have h1 := Int.le_ceil q
    have h2 := Int.ceil_lt_add_one q
    have e1 : x - y * ⌈q⌉ ≤ 0 := by nlinarith
    have e2 : -y < x - y * ⌈q⌉ := by nlinarith
    refine ⟨by rw [abs_of_nonpos e1]; linarith, fun h0 => ?_, fun _ => e1⟩
    have : x < 0 := by rw [hx]; exact mul_neg_of_pos_of_neg hy h
    linarith

/-! ### binary64 -/

instance : Arith F64 where
  lit := F64.ofRat
  pi := F64.pi
  ofInt := F64.ofInt
  add := F64.add
  sub := F64.sub
  mul := F64.mul
  div := F64.div
  rem := F64.rem
  neg := F64.neg
  abs := F64.abs
  sqrt := F64.sqrt
  floor := F64.floor
  round := F64.round
  trunc := F64.trunc
  lt := F64.lt
  le := F64.le
  castSat := F64.castSat

end Verif
