import Mathlib.Analysis.SpecialFunctions.Pow.Real

/-!
# Distance from an ellipsoid of revolution
-/

namespace Verif.Spec

/-- Position of a point relative to the ellipsoid of semi-axes `a` (twice) and `b`: 1 on it, greater outside. -/
noncomputable def level (a b : ℝ) (v : ℝ × ℝ × ℝ) : ℝ := (v.1 ^ 2 + v.2.1 ^ 2) / a ^ 2 + v.2.2 ^ 2 / b ^ 2

/-- Distance of two points of space. -/
noncomputable def dist3 (u v : ℝ × ℝ × ℝ) : ℝ := Real.sqrt ((u.1 - v.1) ^ 2 + (u.2.1 - v.2.1) ^ 2 + (u.2.2 - v.2.2) ^ 2)

/-- `h` is the height of `v` over the ellipsoid: in magnitude the shortest distance from `v` to a point of it, attained at
one point only, and positive outside, negative inside. -/
def IsHeight (a b : ℝ) (v : ℝ × ℝ × ℝ) (h : ℝ) : Prop :=
  (∃ s, level a b s = 1 ∧ dist3 v s = |h| ∧ ∀ t, level a b t = 1 → t ≠ s → |h| < dist3 v t) ∧
    (0 < h ↔ 1 < level a b v) ∧ (h < 0 ↔ level a b v < 1)

end Verif.Spec
