import Mathlib.Data.Int.Basic
import Mathlib.Tactic.NormNum
import Mathlib.Tactic.Ring

/-!
# Rust `i32` arithmetic and panics

`i32` values are integers; every arithmetic operation of the code goes through `I32.norm`, which
is where overflow happens.  A build with overflow checks (`cargo build`, `cargo test`) panics, a release
build wraps modulo `2^32`.
-/

namespace Verif

/-- Ways a Rust function can panic. -/
inductive Panic where
  /-- integer overflow in a checked build -/
  | overflow
  /-- a failed `debug_assert!` -/
  | assert
  /-- index out of bounds -/
  | index
  /-- `unwrap` on an `Err` -/
  | unwrap
  deriving DecidableEq, Repr

/-- Build profile: overflow checks and debug assertions on (`checked`) or off (`wrapping`). -/
inductive Profile where
  | checked
  | wrapping
  deriving DecidableEq, Repr

/-- A Rust computation that may panic. -/
abbrev Rust := Except Panic

deriving instance DecidableEq for Except

namespace I32

/-- The values of type `i32`. -/
def InRange (z : ℤ) : Prop := -2147483648 ≤ z ∧ z ≤ 2147483647

instance (z : ℤ) : Decidable (InRange z) := by unfold InRange; infer_instance

/-- Two's complement reduction. -/
def wrap (z : ℤ) : ℤ := (z + 2147483648) % 4294967296 - 2147483648

/-- The result of an `i32` operation whose mathematical value is `z`. -/
def norm (p : Profile) (z : ℤ) : Rust ℤ :=
  if InRange z then .ok z
  else match p with
    | .checked => .error .overflow
    | .wrapping => .ok (wrap z)

/-- `x + y` -/
def add (p : Profile) (x y : ℤ) : Rust ℤ := norm p (x + y)
/-- `x - y` -/
def sub (p : Profile) (x y : ℤ) : Rust ℤ := norm p (x - y)
/-- `x * y` -/
def mul (p : Profile) (x y : ℤ) : Rust ℤ := norm p (x * y)

theorem norm_ok {p : Profile} {z : ℤ} (h : InRange z) : norm p z = .ok z := by
  unfold norm; rw [if_pos h]

theorem norm_checked {z : ℤ} (h : ¬ InRange z) : norm .checked z = .error .overflow := by
  unfold norm; rw [if_neg h]

theorem add_ok {p : Profile} {x y : ℤ} (h1 : -2147483648 ≤ x + y) (h2 : x + y ≤ 2147483647) :
    add p x y = .ok (x + y) := norm_ok ⟨h1, h2⟩
theorem sub_ok {p : Profile} {x y : ℤ} (h1 : -2147483648 ≤ x - y) (h2 : x - y ≤ 2147483647) :
    sub p x y = .ok (x - y) := norm_ok ⟨h1, h2⟩
theorem mul_ok {p : Profile} {x y : ℤ} (h1 : -2147483648 ≤ x * y) (h2 : x * y ≤ 2147483647) :
    mul p x y = .ok (x * y) := norm_ok ⟨h1, h2⟩

theorem wrap_range (z : ℤ) : InRange (wrap z) := by
  unfold wrap InRange; omega

theorem wrap_mod (z : ℤ) : (wrap z - z) % 4294967296 = 0 := by
  unfold wrap; omega

theorem norm_wrapping (z : ℤ) : norm .wrapping z = .ok (wrap z) := by
  unfold norm
  split
  · rename_i h
    unfold InRange at h
    unfold wrap
    congr 1
    omega
  · rfl

end I32

/-- `Except` bind of a successful value (for rewriting `do` blocks). -/
theorem ok_bind {ε α β : Type} (x : α) (f : α → Except ε β) :
    (Except.ok x >>= f) = f x := rfl

theorem err_bind {ε α β : Type} (x : ε) (f : α → Except ε β) :
    (Except.error x >>= f) = Except.error x := rfl

end Verif
