import Verif.Float.Is

/-!
# Absolute error bounds for binary64 computations

`Near x q e`: `x` is finite and its value differs from the real number `q` by at most `e`.
-/

namespace Verif
open Arith F64

/-- `x` is finite and within `e` of `q`. -/
def Near (x : F64) (q e : ℝ) : Prop := ∃ r : ℚ, Is x r ∧ |(r : ℝ) - q| ≤ e

theorem RN_err_le {x M : ℚ} (h : |x| ≤ M) : |RN x - x| ≤ M / 2 ^ 53 + 1 / 2 ^ 100 := by
  refine (RN_err' x).trans ?_
  have : |x| / 2 ^ 53 ≤ M / 2 ^ 53 := by gcongr
  linarith

theorem RN_err_real {x : ℚ} {M : ℝ} (h : |(x : ℝ)| ≤ M) :
    |((RN x : ℚ) : ℝ) - x| ≤ M / 2 ^ 53 + 1 / 2 ^ 100 := by
  have h1 := RN_err' x
  have h2 : |((RN x : ℚ) : ℝ) - x| ≤ |(x : ℝ)| / 2 ^ 53 + 1 / 2 ^ 100 := by
    have h3 := (Rat.cast_le (K := ℝ)).mpr h1
    push_cast at h3
    exact h3
  refine h2.trans ?_
  have : |(x : ℝ)| / 2 ^ 53 ≤ M / 2 ^ 53 := by gcongr
  linarith

theorem huge_of_real {x : ℚ} {M : ℝ} (h : |(x : ℝ)| ≤ M) (hM : M ≤ 2 ^ 200) : |x| ≤ HUGE := by
  apply small_le_HUGE
  have := h.trans hM
  exact_mod_cast this

namespace Near
variable {x y : F64} {a b e e' M : ℝ}

theorem of_is {q : ℚ} (h : Is x q) : Near x q 0 := ⟨q, h, by simp⟩

theorem isFin (h : Near x a e) : isFin x = true := by
  obtain ⟨r, h, _⟩ := h; exact h.1

theorem v_le (h : Near x a e) : |(x.v : ℝ) - a| ≤ e := by
  obtain ⟨r, h, h'⟩ := h
  obtain ⟨_, rfl⟩ := h
  exact h'

theorem mono (h : Near x a e) (he : e ≤ e') : Near x a e' := by
  obtain ⟨r, h, h'⟩ := h; exact ⟨r, h, h'.trans he⟩

theorem congr (h : Near x a e) (ha : a = b) : Near x b e := ha ▸ h

theorem e_nonneg (h : Near x a e) : 0 ≤ e := by
  obtain ⟨r, _, h'⟩ := h; exact (abs_nonneg _).trans h'

theorem shift (h : Near x a e) (h' : |a - b| ≤ e') : Near x b (e + e') := by
  obtain ⟨r, h1, h2⟩ := h
  refine ⟨r, h1, ?_⟩
  have : (r : ℝ) - b = (r - a) + (a - b) := by ring
  rw [this]
  exact (abs_add_le _ _).trans (add_le_add h2 h')

theorem add (hx : Near x a e) (hy : Near y b e') (hM : |a + b| + e + e' ≤ M) (hb : M ≤ 2 ^ 200) :
    Near (x +. y) (a + b) (e + e' + M / 2 ^ 53 + 1 / 2 ^ 100) := by
  obtain ⟨r, hr, hr'⟩ := hx
  obtain ⟨s, hs, hs'⟩ := hy
  have d : |((r + s : ℚ) : ℝ) - (a + b)| ≤ e + e' := by
    push_cast
    have : (r : ℝ) + s - (a + b) = (r - a) + (s - b) := by ring
    rw [this]; exact (abs_add_le _ _).trans (add_le_add hr' hs')
  have m : |((r + s : ℚ) : ℝ)| ≤ M := by
    have : ((r + s : ℚ) : ℝ) = (((r + s : ℚ) : ℝ) - (a + b)) + (a + b) := by ring
    rw [this]
    refine (abs_add_le _ _).trans ?_
    linarith
  refine ⟨_, hr.add hs (huge_of_real m hb), ?_⟩
  have h1 := RN_err_real m
  have : ((RN (r + s) : ℚ) : ℝ) - (a + b)
    = (((RN (r + s) : ℚ) : ℝ) - ((r + s : ℚ) : ℝ)) + (((r + s : ℚ) : ℝ) - (a + b)) := by ring
  rw [this]
  refine (abs_add_le _ _).trans ?_
  linarith

theorem neg (hx : Near x a e) : Near (Arith.neg x) (-a) e := by
  obtain ⟨r, hr, hr'⟩ := hx
  refine ⟨_, hr.neg, ?_⟩
  push_cast
  have : -(r : ℝ) - -a = -(r - a) := by ring
  rw [this, abs_neg]; exact hr'

theorem sub (hx : Near x a e) (hy : Near y b e') (hM : |a - b| + e + e' ≤ M) (hb : M ≤ 2 ^ 200) :
    Near (x -. y) (a - b) (e + e' + M / 2 ^ 53 + 1 / 2 ^ 100) := by
  obtain ⟨r, hr, hr'⟩ := hx
  obtain ⟨s, hs, hs'⟩ := hy
  have d : |((r - s : ℚ) : ℝ) - (a - b)| ≤ e + e' := by
    push_cast
    have : (r : ℝ) - s - (a - b) = (r - a) - (s - b) := by ring
    rw [this]; exact (abs_sub _ _).trans (add_le_add hr' hs')
  have m : |((r - s : ℚ) : ℝ)| ≤ M := by
    have : ((r - s : ℚ) : ℝ) = (((r - s : ℚ) : ℝ) - (a - b)) + (a - b) := by ring
    rw [this]
    refine (abs_add_le _ _).trans ?_
    linarith
  refine ⟨_, hr.sub hs (huge_of_real m hb), ?_⟩
  have h1 := RN_err_real m
  have : ((RN (r - s) : ℚ) : ℝ) - (a - b)
    = (((RN (r - s) : ℚ) : ℝ) - ((r - s : ℚ) : ℝ)) + (((r - s : ℚ) : ℝ) - (a - b)) := by ring
  rw [this]
  refine (abs_add_le _ _).trans ?_
  linarith

/-- `A`, `B` bound the exact factors, `d` the error of the exact product. -/
theorem mul {A B d : ℝ} (hx : Near x a e) (hy : Near y b e') (hA : |a| ≤ A) (hB : |b| ≤ B)
    (hd : A * e' + B * e + e * e' ≤ d) (hM : A * B + d ≤ M) (hb : M ≤ 2 ^ 200) :
    Near (x *. y) (a * b) (d + M / 2 ^ 53 + 1 / 2 ^ 100) := by
  have e0 := hx.e_nonneg
  have e0' := hy.e_nonneg
  obtain ⟨r, hr, hr'⟩ := hx
  obtain ⟨s, hs, hs'⟩ := hy
  have dd : |((r * s : ℚ) : ℝ) - a * b| ≤ d := by
    push_cast
    have : (r : ℝ) * s - a * b = a * (s - b) + b * (r - a) + (r - a) * (s - b) := by ring
    rw [this]
    refine (abs_add_le _ _).trans ?_
    refine (add_le_add_left (abs_add_le _ _) _).trans ?_
    rw [abs_mul, abs_mul, abs_mul]
    have h1 : |a| * |(s : ℝ) - b| ≤ A * e' := mul_le_mul hA hs' (abs_nonneg _) ((abs_nonneg _).trans hA)
    have h2 : |b| * |(r : ℝ) - a| ≤ B * e := mul_le_mul hB hr' (abs_nonneg _) ((abs_nonneg _).trans hB)
    have h3 : |(r : ℝ) - a| * |(s : ℝ) - b| ≤ e * e' := mul_le_mul hr' hs' (abs_nonneg _) e0
    linarith
  have mab : |a * b| ≤ A * B := by
    rw [abs_mul]; exact mul_le_mul hA hB (abs_nonneg _) ((abs_nonneg _).trans hA)
  have m : |((r * s : ℚ) : ℝ)| ≤ M := by
    have : ((r * s : ℚ) : ℝ) = (((r * s : ℚ) : ℝ) - a * b) + a * b := by ring
    rw [this]
    refine (abs_add_le _ _).trans ?_
    linarith
  refine ⟨_, hr.mul hs (huge_of_real m hb), ?_⟩
  have h1 := RN_err_real m
  have : ((RN (r * s) : ℚ) : ℝ) - a * b
    = (((RN (r * s) : ℚ) : ℝ) - ((r * s : ℚ) : ℝ)) + (((r * s : ℚ) : ℝ) - a * b) := by ring
  rw [this]
  refine (abs_add_le _ _).trans ?_
  linarith

theorem lit (q : ℚ) (hM : |(q : ℝ)| ≤ M) (hb : M ≤ 2 ^ 200) :
    Near (Arith.lit q) q (M / 2 ^ 53 + 1 / 2 ^ 100) :=
  ⟨_, Is.lit q (huge_of_real hM hb), RN_err_real hM⟩

/-- Division by an exactly represented number. -/
theorem div_exact {c : ℚ} {C : ℝ} (hx : Near x a e) (hy : Is y c) (hc : c ≠ 0)
    (hC : |1 / (c : ℝ)| ≤ C) (hM : (|a| + e) * C ≤ M) (hb : M ≤ 2 ^ 200) :
    Near (x /. y) (a / c) (e * C + M / 2 ^ 53 + 1 / 2 ^ 100) := by
  have e0 := hx.e_nonneg
  obtain ⟨r, hr, hr'⟩ := hx
  have d : |((r / c : ℚ) : ℝ) - a / c| ≤ e * C := by
    push_cast
    have : (r : ℝ) / c - a / c = (r - a) * (1 / c) := by ring
    rw [this, abs_mul]
    exact mul_le_mul hr' hC (abs_nonneg _) e0
  have m : |((r / c : ℚ) : ℝ)| ≤ M := by
    have : ((r / c : ℚ) : ℝ) = ((r - a) + a) * (1 / c) := by push_cast; ring
    rw [this, abs_mul]
    refine (mul_le_mul (abs_add_le _ _) hC (abs_nonneg _) (by positivity)).trans ?_
    refine le_trans ?_ hM
    have : 0 ≤ C := (abs_nonneg _).trans hC
    refine mul_le_mul_of_nonneg_right ?_ this
    linarith
  refine ⟨_, hr.div hy hc (huge_of_real m hb), ?_⟩
  have h1 := RN_err_real m
  have : ((RN (r / c) : ℚ) : ℝ) - a / c
    = (((RN (r / c) : ℚ) : ℝ) - ((r / c : ℚ) : ℝ)) + (((r / c : ℚ) : ℝ) - a / c) := by ring
  rw [this]
  refine (abs_add_le _ _).trans ?_
  linarith

theorem rat {v : F64} {q e : ℚ} (h : Near v q e) : ∃ x, Is v x ∧ |x - q| ≤ e := by
  obtain ⟨x, hx, hn⟩ := h
  exact ⟨x, hx, by exact_mod_cast hn⟩

end Near
end Verif
