import Verif.Float.NB

/-!
# The interval calculus, relative to a scale

`SB x q e M σ`: `x` is finite, within `e * σ` of the real number `q`, and `|q| ≤ M * σ`.  With a scale that goes to zero
like the exact value the errors are relative.  The numeric side conditions are those of `NB`.
-/

namespace Verif
open Arith F64

/-- Scales for which underflow and overflow play no role. -/
def Ok (σ : ℝ) : Prop := 1 / 2 ^ 230 ≤ σ ∧ σ ≤ 2 ^ 230

theorem Ok.pos {σ : ℝ} (h : Ok σ) : 0 < σ := lt_of_lt_of_le (by positivity) h.1

theorem U_inv_small' : 1 / (2 * U) ≤ 1 / 2 ^ 100 * (1 / 2 ^ 230) := by
  have hU : (2 : ℚ) ^ 100 * 2 ^ 230 ≤ U := by
    unfold U
    obtain ⟨k, hk⟩ : ∃ k : ℕ, k = 1074 := ⟨_, rfl⟩
    rw [UN_eq_pow k hk, ← pow_add]
    push_cast
    exact pow_le_pow_right₀ (by norm_num) (by omega)
  rw [← one_div_mul_one_div]
  rw [one_div_mul_one_div, one_div_mul_one_div]
  apply one_div_le_one_div_of_le (by positivity)
  have : (0 : ℚ) < 2 ^ 100 * 2 ^ 230 := by positivity
  linarith

/-- Rounding error relative to a scale. -/
theorem RN_err_scale {x : ℚ} {M σ : ℝ} (hσ : Ok σ) (h : |(x : ℝ)| ≤ M * σ) :
    |((RN x : ℚ) : ℝ) - x| ≤ (M / 2 ^ 53 + 1 / 2 ^ 100) * σ := by
  have h1 : |RN x - x| ≤ |x| / 2 ^ 53 + 1 / 2 ^ 100 * (1 / 2 ^ 230) := by
    refine (RN_err x).trans (max_le ?_ ?_)
    · have : (0 : ℚ) < 1 / 2 ^ 100 * (1 / 2 ^ 230) := by positivity
      linarith
    · refine U_inv_small'.trans ?_
      have : 0 ≤ |x| / 2 ^ 53 := by positivity
      linarith
  have h3 := (Rat.cast_le (K := ℝ)).mpr h1
  push_cast at h3
  have h4 : (1 : ℝ) / 2 ^ 100 * (1 / 2 ^ 230) ≤ 1 / 2 ^ 100 * σ := mul_le_mul_of_nonneg_left hσ.1 (by positivity)
  have h5 : |(x : ℝ)| / 2 ^ 53 ≤ M * σ / 2 ^ 53 := by gcongr
  calc _ ≤ _ := h3
    _ ≤ M * σ / 2 ^ 53 + 1 / 2 ^ 100 * σ := add_le_add h5 h4
    _ = _ := by ring

theorem huge_of_scale {x : ℚ} {M σ : ℝ} (hσ : Ok σ) (h : |(x : ℝ)| ≤ M * σ) (hM : M ≤ 2 ^ 200) : |x| ≤ HUGE := by
  have h1 : |(x : ℝ)| ≤ 2 ^ 200 * 2 ^ 230 := h.trans (mul_le_mul hM hσ.2 hσ.pos.le (by positivity))
  have h2 : |x| ≤ 2 ^ 200 * 2 ^ 230 := by exact_mod_cast h1
  rw [← pow_add] at h2
  exact le_HUGE h2 (by norm_num)

/-- `x` is finite, within `e * σ` of `q`, and `|q| ≤ M * σ`. -/
structure SB (x : F64) (q e M σ : ℝ) : Prop where
  near : Near x q (e * σ)
  mag : |q| ≤ M * σ
  ok : Ok σ

namespace SB
variable {x y : F64} {a b e e' E A B M σ τ : ℝ}

theorem e_nonneg (h : SB x a e A σ) : 0 ≤ e := by
  have := h.near.e_nonneg
  exact nonneg_of_mul_nonneg_left this h.ok.pos

theorem M_nonneg (h : SB x a e A σ) : 0 ≤ A :=
  nonneg_of_mul_nonneg_left ((abs_nonneg _).trans h.mag) h.ok.pos

theorem mono (h : SB x a e A σ) (hn : e ≤ E ∧ A ≤ M) : SB x a E M σ := by
  have := h.ok.pos.le
  exact ⟨h.near.mono (by gcongr; exact hn.1), h.mag.trans (by gcongr; exact hn.2), h.ok⟩

theorem congr (h : SB x a e A σ) (hab : a = b) : SB x b e A σ := hab ▸ h

theorem scale (h : SB x a e A σ) (hs : σ = τ) : SB x a e A τ := hs ▸ h

theorem remag (h : SB x a e A σ) (hM : |a| ≤ M * σ) : SB x a e M σ := ⟨h.near, hM, h.ok⟩

/-- A larger scale. -/
theorem rescale {k : ℝ} (h : SB x a e A σ) (ht : Ok τ) (hk : σ ≤ k * τ) (hn : e * k ≤ E ∧ A * k ≤ M) : SB x a E M τ := by
  have e0 := h.e_nonneg
  have A0 := h.M_nonneg
  have t0 := ht.pos.le
  refine ⟨h.near.mono ?_, h.mag.trans ?_, ht⟩
  · calc e * σ ≤ e * (k * τ) := by gcongr
      _ = e * k * τ := by ring
      _ ≤ E * τ := by gcongr; exact hn.1
  · calc A * σ ≤ A * (k * τ) := by gcongr
      _ = A * k * τ := by ring
      _ ≤ M * τ := by gcongr; exact hn.2

theorem of_is {q : ℚ} (h : Is x q) (hs : Ok σ) (hM : |(q : ℝ)| ≤ M * σ) : SB x q 0 M σ :=
  ⟨by rw [zero_mul]; exact Near.of_is h, hM, hs⟩

theorem lit (q : ℚ) (hs : Ok σ) (h : |(q : ℝ)| ≤ M * σ) (hn : M / 2 ^ 53 + 1 / 2 ^ 100 ≤ E ∧ M ≤ 2 ^ 200) :
    SB (Arith.lit q) q E M σ :=
  ⟨⟨_, Is.lit q (huge_of_scale hs h hn.2),
    (RN_err_scale hs h).trans (mul_le_mul_of_nonneg_right hn.1 hs.pos.le)⟩, h, hs⟩

theorem of_nb (h : NB x a e A) : SB x a e A 1 := by
  refine ⟨by rw [mul_one]; exact h.near, by rw [mul_one]; exact h.mag, ?_, ?_⟩
  · rw [div_le_iff₀ (by positivity), one_mul]; exact one_le_pow₀ (by norm_num)
  · exact one_le_pow₀ (by norm_num)

theorem add (hx : SB x a e A σ) (hy : SB y b e' B σ)
    (h : e + e' + (A + B + e + e') / 2 ^ 53 + 1 / 2 ^ 100 ≤ E ∧ A + B ≤ M ∧ A + B + e + e' ≤ 2 ^ 200) :
    SB (x +. y) (a + b) E M σ := by
  have s0 := hx.ok.pos.le
  have hA := hx.mag
  have hB := hy.mag
  have hab : |a + b| ≤ (A + B) * σ := (abs_add_le a b).trans (by rw [add_mul]; exact add_le_add hx.mag hy.mag)
  obtain ⟨r, hr, hr'⟩ := hx.near
  obtain ⟨s, hs, hs'⟩ := hy.near
  have d : |((r + s : ℚ) : ℝ) - (a + b)| ≤ (e + e') * σ := by
    push_cast
    have : (r : ℝ) + s - (a + b) = (r - a) + (s - b) := by ring
    rw [this, add_mul]
    exact (abs_add_le _ _).trans (add_le_add hr' hs')
  have m : |((r + s : ℚ) : ℝ)| ≤ (A + B + e + e') * σ := by
    have : ((r + s : ℚ) : ℝ) = (a + b) + (((r + s : ℚ) : ℝ) - (a + b)) := by ring
    rw [this]
    refine (abs_add_le _ _).trans ((add_le_add hab d).trans (le_of_eq (by ring)))
  refine ⟨⟨_, hr.add hs (huge_of_scale hx.ok m h.2.2), ?_⟩, hab.trans (by gcongr; exact h.2.1), hx.ok⟩
  have h1 := RN_err_scale hx.ok m
  have : ((RN (r + s) : ℚ) : ℝ) - (a + b)
    = (((RN (r + s) : ℚ) : ℝ) - ((r + s : ℚ) : ℝ)) + (((r + s : ℚ) : ℝ) - (a + b)) := by ring
  rw [this]
  refine ((abs_add_le _ _).trans (add_le_add h1 d)).trans ?_
  rw [← add_mul]
  gcongr
  linarith [h.1]

theorem neg (hx : SB x a e A σ) : SB (Arith.neg x) (-a) e A σ := ⟨hx.near.neg, by rw [abs_neg]; exact hx.mag, hx.ok⟩

theorem sub (hx : SB x a e A σ) (hy : SB y b e' B σ)
    (h : e + e' + (A + B + e + e') / 2 ^ 53 + 1 / 2 ^ 100 ≤ E ∧ A + B ≤ M ∧ A + B + e + e' ≤ 2 ^ 200) :
    SB (x -. y) (a - b) E M σ := by
  have s0 := hx.ok.pos.le
  have hab : |a - b| ≤ (A + B) * σ := (abs_sub a b).trans (by rw [add_mul]; exact add_le_add hx.mag hy.mag)
  obtain ⟨r, hr, hr'⟩ := hx.near
  obtain ⟨s, hs, hs'⟩ := hy.near
  have d : |((r - s : ℚ) : ℝ) - (a - b)| ≤ (e + e') * σ := by
    push_cast
    have : (r : ℝ) - s - (a - b) = (r - a) - (s - b) := by ring
    rw [this, add_mul]
    exact (abs_sub _ _).trans (add_le_add hr' hs')
  have m : |((r - s : ℚ) : ℝ)| ≤ (A + B + e + e') * σ := by
    have : ((r - s : ℚ) : ℝ) = (a - b) + (((r - s : ℚ) : ℝ) - (a - b)) := by ring
    rw [this]
    refine (abs_add_le _ _).trans ((add_le_add hab d).trans (le_of_eq (by ring)))
  refine ⟨⟨_, hr.sub hs (huge_of_scale hx.ok m h.2.2), ?_⟩, hab.trans (by gcongr; exact h.2.1), hx.ok⟩
  have h1 := RN_err_scale hx.ok m
  have : ((RN (r - s) : ℚ) : ℝ) - (a - b)
    = (((RN (r - s) : ℚ) : ℝ) - ((r - s : ℚ) : ℝ)) + (((r - s : ℚ) : ℝ) - (a - b)) := by ring
  rw [this]
  refine ((abs_add_le _ _).trans (add_le_add h1 d)).trans ?_
  rw [← add_mul]
  gcongr
  linarith [h.1]

theorem mul (hx : SB x a e A σ) (hy : SB y b e' B τ) (ho : Ok (σ * τ))
    (h : A * e' + B * e + e * e' + (A * B + (A * e' + B * e + e * e')) / 2 ^ 53 + 1 / 2 ^ 100 ≤ E ∧ A * B ≤ M ∧
      A * B + (A * e' + B * e + e * e') ≤ 2 ^ 200) :
    SB (x *. y) (a * b) E M (σ * τ) := by
  have s0 := hx.ok.pos.le
  have t0 := hy.ok.pos.le
  have e0 := hx.e_nonneg
  have A0 := hx.M_nonneg
  have B0 := hy.M_nonneg
  have hA := hx.mag
  have hB := hy.mag
  have hab : |a * b| ≤ A * B * (σ * τ) := by
    rw [abs_mul]
    exact (mul_le_mul hA hB (abs_nonneg _) (by positivity)).trans (le_of_eq (by ring))
  obtain ⟨r, hr, hr'⟩ := hx.near
  obtain ⟨s, hs, hs'⟩ := hy.near
  have d : |((r * s : ℚ) : ℝ) - a * b| ≤ (A * e' + B * e + e * e') * (σ * τ) := by
    push_cast
    have : (r : ℝ) * s - a * b = a * (s - b) + b * (r - a) + (r - a) * (s - b) := by ring
    rw [this]
    refine (abs_add_le _ _).trans ?_
    have k1 : |a * (s - b)| ≤ A * σ * (e' * τ) := by rw [abs_mul]; exact mul_le_mul hA hs' (abs_nonneg _) (by positivity)
    have k2 : |b * (r - a)| ≤ B * τ * (e * σ) := by rw [abs_mul]; exact mul_le_mul hB hr' (abs_nonneg _) (by positivity)
    have k3 : |(r - a) * (s - b)| ≤ e * σ * (e' * τ) := by rw [abs_mul]; exact mul_le_mul hr' hs' (abs_nonneg _) (by positivity)
    have k4 := abs_add_le (a * (s - b)) (b * (r - a))
    calc _ ≤ A * σ * (e' * τ) + B * τ * (e * σ) + e * σ * (e' * τ) := by linarith
      _ = _ := by ring
  have m : |((r * s : ℚ) : ℝ)| ≤ (A * B + (A * e' + B * e + e * e')) * (σ * τ) := by
    have : ((r * s : ℚ) : ℝ) = a * b + (((r * s : ℚ) : ℝ) - a * b) := by ring
    rw [this]
    refine (abs_add_le _ _).trans ((add_le_add hab d).trans (le_of_eq (by ring)))
  have st := ho.pos.le
  refine ⟨⟨_, hr.mul hs (huge_of_scale ho m h.2.2), ?_⟩, hab.trans (mul_le_mul_of_nonneg_right h.2.1 st), ho⟩
  have h1 := RN_err_scale ho m
  have : ((RN (r * s) : ℚ) : ℝ) - a * b
    = (((RN (r * s) : ℚ) : ℝ) - ((r * s : ℚ) : ℝ)) + (((r * s : ℚ) : ℝ) - a * b) := by ring
  rw [this]
  refine ((abs_add_le _ _).trans (add_le_add h1 d)).trans ?_
  rw [← add_mul]
  refine mul_le_mul_of_nonneg_right ?_ st
  linarith [h.1]

/-- Division; `β * τ` is a lower bound for the magnitude of the exact divisor. -/
theorem div {β : ℝ} (hx : SB x a e A σ) (hy : SB y b e' B τ) (ho : Ok (σ / τ)) (hβ : β * τ ≤ |b|) (hβ' : e' < β)
    (h : e / (β - e') + A * e' / ((β - e') * β) + (A / β + (e / (β - e') + A * e' / ((β - e') * β))) / 2 ^ 53
        + 1 / 2 ^ 100 ≤ E ∧ A / β ≤ M ∧ A / β + (e / (β - e') + A * e' / ((β - e') * β)) ≤ 2 ^ 200) :
    SB (x /. y) (a / b) E M (σ / τ) := by
  have e0 := hx.e_nonneg
  have e0' := hy.e_nonneg
  have hA := hx.mag
  have A0 := hx.M_nonneg
  have s0 := hx.ok.pos
  have t0 := hy.ok.pos
  obtain ⟨r, hr, hr'⟩ := hx.near
  obtain ⟨s, hs, hs'⟩ := hy.near
  have β0 : 0 < β := lt_of_le_of_lt e0' hβ'
  have γ0 : 0 < β - e' := by linarith
  have bt : 0 < β * τ := by positivity
  have b0 : b ≠ 0 := by intro h0; rw [h0, abs_zero] at hβ; linarith
  have hsb : (β - e') * τ ≤ |(s : ℝ)| := by
    have := abs_sub_abs_le_abs_sub b (s : ℝ)
    rw [abs_sub_comm] at this
    rw [sub_mul]
    linarith
  have st : 0 < (β - e') * τ := by positivity
  have s0r : (s : ℝ) ≠ 0 := by intro h0; rw [h0, abs_zero] at hsb; linarith
  have s0' : s ≠ 0 := by exact_mod_cast s0r
  have d : |((r / s : ℚ) : ℝ) - a / b| ≤ (e / (β - e') + A * e' / ((β - e') * β)) * (σ / τ) := by
    push_cast
    have : (r : ℝ) / s - a / b = (r - a) / s + a * (b - s) / (s * b) := by field_simp; ring
    rw [this]
    have k1 : |(r - a) / (s : ℝ)| ≤ e * σ / ((β - e') * τ) := by rw [abs_div]; exact div_le_div₀ (by positivity) hr' st hsb
    have k2 : |a * (b - s) / ((s : ℝ) * b)| ≤ A * σ * (e' * τ) / ((β - e') * τ * (β * τ)) := by
      rw [abs_div, abs_mul, abs_mul]
      refine div_le_div₀ (by positivity) ?_ (by positivity) ?_
      · rw [abs_sub_comm b]; exact mul_le_mul hA hs' (abs_nonneg _) (by positivity)
      · exact mul_le_mul hsb hβ bt.le (abs_nonneg _)
    refine (abs_add_le _ _).trans ((add_le_add k1 k2).trans (le_of_eq ?_))
    field_simp
  have mab : |a / b| ≤ A / β * (σ / τ) := by
    rw [abs_div]
    refine (div_le_div₀ (by positivity) hA bt hβ).trans (le_of_eq ?_)
    field_simp
  have m : |((r / s : ℚ) : ℝ)| ≤ (A / β + (e / (β - e') + A * e' / ((β - e') * β))) * (σ / τ) := by
    have : ((r / s : ℚ) : ℝ) = a / b + (((r / s : ℚ) : ℝ) - a / b) := by ring
    rw [this, add_mul]
    exact (abs_add_le _ _).trans (add_le_add mab d)
  have or := ho.pos.le
  refine ⟨⟨_, hr.div hs s0' (huge_of_scale ho m h.2.2), ?_⟩, mab.trans (mul_le_mul_of_nonneg_right h.2.1 or), ho⟩
  have h1 := RN_err_scale ho m
  have : ((RN (r / s) : ℚ) : ℝ) - a / b
    = (((RN (r / s) : ℚ) : ℝ) - ((r / s : ℚ) : ℝ)) + (((r / s : ℚ) : ℝ) - a / b) := by ring
  rw [this]
  refine ((abs_add_le _ _).trans (add_le_add h1 d)).trans ?_
  rw [← add_mul]
  refine mul_le_mul_of_nonneg_right ?_ or
  linarith [h.1]

/-- Square root; `(β σ)²` is a lower bound for the exact argument less its error, `C` an upper bound for its root. -/
theorem sqrt {β C : ℝ} (hx : SB x a e A (σ * σ)) (hs : Ok σ) (hβ : 0 < β) (hβ' : (β ^ 2 + e) * (σ * σ) ≤ a)
    (hC : 0 ≤ C) (hC' : A ≤ C ^ 2)
    (h : e / (2 * β) + (C + e / (2 * β)) / 2 ^ 53 ≤ E ∧ C ≤ M) : SB (Arith.sqrt x) (Real.sqrt a) E M σ := by
  have e0 := hx.e_nonneg
  have s0 := hs.pos
  have a0 : 0 ≤ a := (by positivity : (0 : ℝ) ≤ (β ^ 2 + e) * (σ * σ)).trans hβ'
  have hA := hx.mag
  rw [abs_of_nonneg a0] at hA
  obtain ⟨r, hr, hr'⟩ := hx.near
  have rb : (β * σ) ^ 2 ≤ r := by
    have := (abs_le.mp hr').1
    have e1 : (β ^ 2 + e) * (σ * σ) = (β * σ) ^ 2 + e * (σ * σ) := by ring
    linarith
  have ab : (β * σ) ^ 2 ≤ a := by
    have e1 : (β ^ 2 + e) * (σ * σ) = (β * σ) ^ 2 + e * (σ * σ) := by ring
    have : 0 ≤ e * (σ * σ) := by positivity
    linarith
  have r0 : (0 : ℝ) ≤ r := (by positivity : (0 : ℝ) ≤ (β * σ) ^ 2).trans rb
  obtain ⟨s, hs1, s1, hs'⟩ := hr.sqrt (by exact_mod_cast r0)
  have hsb : β * σ ≤ Real.sqrt a := Real.le_sqrt_of_sq_le ab
  have hrb : β * σ ≤ Real.sqrt r := Real.le_sqrt_of_sq_le rb
  have hsC : Real.sqrt a ≤ C * σ := by
    have : a ≤ (C * σ) ^ 2 := hA.trans (by
      calc A * (σ * σ) ≤ C ^ 2 * (σ * σ) := by gcongr
        _ = _ := by ring)
    exact (Real.sqrt_le_sqrt this).trans (le_of_eq (Real.sqrt_sq (by positivity)))
  have d : |Real.sqrt r - Real.sqrt a| ≤ e / (2 * β) * σ := by
    have h1 : (Real.sqrt r - Real.sqrt a) * (Real.sqrt r + Real.sqrt a) = r - a := by
      have h2 := Real.mul_self_sqrt r0
      have h3 := Real.mul_self_sqrt a0
      linear_combination h2 - h3
    have h2 : 2 * (β * σ) ≤ Real.sqrt r + Real.sqrt a := by linarith
    have h3 : |Real.sqrt r - Real.sqrt a| * |Real.sqrt r + Real.sqrt a| ≤ e * (σ * σ) := by
      rw [← abs_mul, h1]; exact hr'
    have h4 : |Real.sqrt r - Real.sqrt a| * (2 * (β * σ)) ≤ e * (σ * σ) := by
      refine le_trans ?_ h3
      exact mul_le_mul_of_nonneg_left (h2.trans (le_abs_self _)) (abs_nonneg _)
    have h5 : |Real.sqrt r - Real.sqrt a| ≤ e * (σ * σ) / (2 * (β * σ)) := by
      rw [le_div_iff₀ (by positivity)]; exact h4
    refine h5.trans (le_of_eq ?_)
    field_simp
  have hrC : Real.sqrt r ≤ (C + e / (2 * β)) * σ := by rw [add_mul]; linarith [(abs_le.mp d).2]
  refine ⟨⟨s, hs1, ?_⟩, ?_, hs⟩
  · have : (s : ℝ) - Real.sqrt a = (s - Real.sqrt r) + (Real.sqrt r - Real.sqrt a) := by ring
    rw [this]
    have h6 : Real.sqrt r / 2 ^ 53 ≤ (C + e / (2 * β)) * σ / 2 ^ 53 := by gcongr
    refine ((abs_add_le _ _).trans (add_le_add (hs'.trans h6) d)).trans ?_
    calc _ = (e / (2 * β) + (C + e / (2 * β)) / 2 ^ 53) * σ := by ring
      _ ≤ E * σ := by gcongr; exact h.1
  · rw [abs_of_nonneg (Real.sqrt_nonneg _)]
    exact hsC.trans (by gcongr; exact h.2)

end SB

end Verif
