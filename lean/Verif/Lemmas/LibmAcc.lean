import Verif.Float.NB
import Verif.Props.Series

/-!
# Accuracy of the mathematical library, and angles modulo one turn in binary64

Rust leaves the accuracy of `f64::sin` etc. to the platform.  `LibmAcc` is the hypothesis used by the f64 accuracy
theorems: an absolute error of at most `2^-50` (eight units in the last place at 1).  `exists_libmAcc` shows that the
hypothesis can be met.
-/

namespace Verif
open Arith F64 Spec

/-- The library functions used by the frames and the Sun angle are accurate to `2^-50`.  `atan2` only up to whole
turns: at the branch cut the sign of a zero decides between `π` and `-π`. -/
structure LibmAcc [Libm F64] : Prop where
  sin : ∀ (x : F64) (a : ℚ), Is x a → |a| ≤ 2 ^ 30 → Near (Libm.sin x) (Real.sin a) (1 / 2 ^ 50)
  cos : ∀ (x : F64) (a : ℚ), Is x a → |a| ≤ 2 ^ 30 → Near (Libm.cos x) (Real.cos a) (1 / 2 ^ 50)
  atan : ∀ (x : F64) (a : ℚ), Is x a → |a| ≤ 2 ^ 30 → Near (Libm.atan x) (Real.arctan a) (1 / 2 ^ 50)
  acos : ∀ (x : F64) (a : ℚ), Is x a → |a| ≤ 1 → Near (Libm.acos x) (Real.arccos a) (1 / 2 ^ 50)
  atan2 : ∀ (y x : F64) (b a : ℚ), Is y b → Is x a → (a ≠ 0 ∨ b ≠ 0) →
    ∃ k : ℤ, |k| ≤ 1 ∧ Near (Libm.atan2 y x) (Complex.arg ⟨a, b⟩ + k * (2 * Real.pi)) (1 / 2 ^ 50)

/-- Every real number of moderate size has a float close to it. -/
theorem exists_near (ρ : ℝ) (h : |ρ| ≤ 4) : ∃ y : F64, Near y ρ (1 / 2 ^ 50) := by
  obtain ⟨q, h1, h2⟩ := exists_rat_btwn (show ρ < ρ + 1 / 2 ^ 60 by norm_num)
  have hq : |(q : ℝ)| ≤ 5 := by
    rw [abs_le] at *
    norm_num at *
    constructor <;> linarith
  refine ⟨Arith.lit q, ((Near.lit q hq (by norm_num)).shift (b := ρ) (e' := 1 / 2 ^ 60) ?_).mono (by norm_num)⟩
  rw [abs_le]
  norm_num at *
  constructor <;> linarith

instance : Nonempty F64 := ⟨.nan⟩

/-- A library that meets the hypothesis. -/
@[instance_reducible] noncomputable def goodLibm : Libm F64 where
  sin x := Classical.epsilon fun y => Near y (Real.sin (v x)) (1 / 2 ^ 50)
  cos x := Classical.epsilon fun y => Near y (Real.cos (v x)) (1 / 2 ^ 50)
  tan x := x
  acos x := Classical.epsilon fun y => Near y (Real.arccos (v x)) (1 / 2 ^ 50)
  asin x := x
  atan x := Classical.epsilon fun y => Near y (Real.arctan (v x)) (1 / 2 ^ 50)
  atan2 y x := Classical.epsilon fun z => Near z (Complex.arg ⟨v x, v y⟩) (1 / 2 ^ 50)

theorem exists_libmAcc : @LibmAcc goodLibm := by
  let _ := goodLibm
  have hpi := Real.pi_lt_four
  have hp0 := Real.pi_pos
  refine ⟨?_, ?_, ?_, ?_, ?_⟩
  · rintro x a ⟨-, rfl⟩ -
    exact Classical.epsilon_spec (exists_near _ ((Real.abs_sin_le_one _).trans (by norm_num)))
  · rintro x a ⟨-, rfl⟩ -
    exact Classical.epsilon_spec (exists_near _ ((Real.abs_cos_le_one _).trans (by norm_num)))
  · rintro x a ⟨-, rfl⟩ -
    refine Classical.epsilon_spec (exists_near _ ?_)
    rw [abs_le]
    constructor
    · linarith [Real.neg_pi_div_two_lt_arctan ((v x : ℚ) : ℝ)]
    · linarith [Real.arctan_lt_pi_div_two ((v x : ℚ) : ℝ)]
  · rintro x a ⟨-, rfl⟩ -
    refine Classical.epsilon_spec (exists_near _ ?_)
    rw [abs_le]
    constructor
    · linarith [Real.arccos_nonneg ((v x : ℚ) : ℝ)]
    · linarith [Real.arccos_le_pi ((v x : ℚ) : ℝ)]
  · rintro y x b a ⟨-, rfl⟩ ⟨-, rfl⟩ -
    refine ⟨0, by norm_num, ?_⟩
    rw [Int.cast_zero, zero_mul, add_zero]
    refine Classical.epsilon_spec (exists_near _ ?_)
    exact (Complex.abs_arg_le_pi _).trans hpi.le

namespace LibmAcc
variable [Libm F64] (hL : LibmAcc) {x y : F64} {a e A E : ℝ}

include hL

theorem nbSin (h : NB x a e A) (hn : e + 1 / 2 ^ 50 ≤ E ∧ A + e ≤ 2 ^ 30) : NB (Libm.sin x) (Real.sin a) E 1 := by
  obtain ⟨r, h1, h2, h3⟩ := h.exists_is
  refine ⟨((hL.sin x r h1 ?_).shift ((Real.abs_sin_sub_sin_le _ _).trans h2)).mono (by linarith [hn.1]),
    Real.abs_sin_le_one _⟩
  exact_mod_cast h3.trans hn.2

theorem nbCos (h : NB x a e A) (hn : e + 1 / 2 ^ 50 ≤ E ∧ A + e ≤ 2 ^ 30) : NB (Libm.cos x) (Real.cos a) E 1 := by
  obtain ⟨r, h1, h2, h3⟩ := h.exists_is
  refine ⟨((hL.cos x r h1 ?_).shift ((Real.abs_cos_sub_cos_le _ _).trans h2)).mono (by linarith [hn.1]),
    Real.abs_cos_le_one _⟩
  exact_mod_cast h3.trans hn.2

end LibmAcc

/-! ## Angles modulo one turn -/

/-- `x` is finite, of magnitude at most `M`, and equal to `θ` up to whole turns and an error of at most `e`. -/
def Ang (x : F64) (θ e M : ℝ) : Prop := ∃ r : ℚ, Is x r ∧ Cong e r θ ∧ |(r : ℝ)| ≤ M

theorem Cong.trans_le {e e' x y z : ℝ} (h : |x - y| ≤ e) (h' : Cong e' y z) : Cong (e + e') x z := by
  obtain ⟨k, hk⟩ := h'
  refine ⟨k, ?_⟩
  have : x - (z - k * (2 * Real.pi)) = (x - y) + (y - (z - k * (2 * Real.pi))) := by ring
  rw [this]
  exact (abs_add_le _ _).trans (add_le_add h hk)

theorem Cong.of_abs {e x y : ℝ} (h : |x - y| ≤ e) : Cong e x y := ⟨0, by simpa using h⟩

namespace Ang
variable {x y : F64} {θ φ e e' E A B M : ℝ}

theorem mono (h : Ang x θ e A) (hn : e ≤ E ∧ A ≤ M) : Ang x θ E M := by
  obtain ⟨r, h1, h2, h3⟩ := h
  exact ⟨r, h1, h2.mono hn.1, h3.trans hn.2⟩

theorem congr (h : Ang x θ e A) (hθ : θ = φ) : Ang x φ e A := hθ ▸ h

theorem e_nonneg (h : Ang x θ e A) : 0 ≤ e := by
  obtain ⟨r, h1, ⟨k, h2⟩, h3⟩ := h
  exact (abs_nonneg _).trans h2

theorem M_nonneg (h : Ang x θ e A) : 0 ≤ A := by
  obtain ⟨r, h1, h2, h3⟩ := h
  exact (abs_nonneg _).trans h3

theorem of_nb (h : NB x θ e A) (hn : A + e ≤ M) : Ang x θ e M := by
  obtain ⟨r, h1, h2, h3⟩ := h.exists_is
  exact ⟨r, h1, Cong.of_abs h2, h3.trans hn⟩

theorem add (hx : Ang x θ e A) (hy : Ang y φ e' B)
    (h : e + e' + (A + B) / 2 ^ 53 + 1 / 2 ^ 100 ≤ E ∧ A + B + (A + B) / 2 ^ 53 + 1 / 2 ^ 100 ≤ M ∧ A + B ≤ 2 ^ 200) :
    Ang (x +. y) (θ + φ) E M := by
  obtain ⟨r, r1, r2, r3⟩ := hx
  obtain ⟨s, s1, s2, s3⟩ := hy
  have m : |((r + s : ℚ) : ℝ)| ≤ A + B := by
    push_cast; exact (abs_add_le _ _).trans (add_le_add r3 s3)
  have hr := RN_err_real m
  refine ⟨_, r1.add s1 (huge_of_real m h.2.2), ?_, ?_⟩
  · have h3 := Cong.trans_le (x := ((RN (r + s) : ℚ) : ℝ)) (y := r + s) (by push_cast at hr; exact hr) (r2.add s2)
    exact h3.mono (by linarith [h.1])
  · have : ((RN (r + s) : ℚ) : ℝ) = ((r + s : ℚ) : ℝ) + (((RN (r + s) : ℚ) : ℝ) - ((r + s : ℚ) : ℝ)) := by ring
    rw [this]
    refine (abs_add_le _ _).trans ?_
    linarith [h.2.1]

theorem neg (hx : Ang x θ e A) : Ang (Arith.neg x) (-θ) e A := by
  obtain ⟨r, r1, ⟨k, r2⟩, r3⟩ := hx
  refine ⟨_, r1.neg, ⟨-k, ?_⟩, ?_⟩
  · push_cast
    have : -(r : ℝ) - (-θ - -(k : ℝ) * (2 * Real.pi)) = -(r - (θ - k * (2 * Real.pi))) := by ring
    rw [this, abs_neg]; exact r2
  · push_cast; rw [abs_neg]; exact r3

/-- Multiplication by a small integer. -/
theorem smul (hx : Ang x θ e A) (n : ℤ) {N : ℝ} (hN : |(n : ℝ)| ≤ N) (hN' : N ≤ 2 ^ 53)
    (h : N * e + N * A / 2 ^ 53 + 1 / 2 ^ 100 ≤ E ∧ N * A + N * A / 2 ^ 53 + 1 / 2 ^ 100 ≤ M ∧ N * A ≤ 2 ^ 200) :
    Ang (Arith.ofInt n *. x) (n * θ) E M := by
  have e0 := hx.e_nonneg
  have A0 := hx.M_nonneg
  obtain ⟨r, r1, r2, r3⟩ := hx
  have hn : |n| ≤ 2 ^ 53 := by exact_mod_cast hN.trans hN'
  have m : |((n * r : ℚ) : ℝ)| ≤ N * A := by
    push_cast; rw [abs_mul]; exact mul_le_mul hN r3 (abs_nonneg _) ((abs_nonneg _).trans hN)
  have hr := RN_err_real m
  refine ⟨_, (Is.ofInt n hn).mul r1 (huge_of_real m h.2.2), ?_, ?_⟩
  · have h3 := Cong.trans_le (x := ((RN (n * r) : ℚ) : ℝ)) (y := n * r) (by push_cast at hr; exact hr) (r2.smul n)
    refine h3.mono ?_
    have : |(n : ℝ)| * e ≤ N * e := by gcongr
    linarith [h.1]
  · have : ((RN (n * r) : ℚ) : ℝ) = ((n * r : ℚ) : ℝ) + (((RN (n * r) : ℚ) : ℝ) - ((n * r : ℚ) : ℝ)) := by ring
    rw [this]
    refine (abs_add_le _ _).trans ?_
    linarith [h.2.1]

theorem nbSin [Libm F64] (hL : LibmAcc) (h : Ang x θ e A) (hn : e + 1 / 2 ^ 50 ≤ E ∧ A ≤ 2 ^ 30) :
    NB (Libm.sin x) (Real.sin θ) E 1 := by
  obtain ⟨r, h1, h2, h3⟩ := h
  refine ⟨((hL.sin x r h1 ?_).shift h2.sin).mono (by linarith [hn.1]), Real.abs_sin_le_one _⟩
  exact_mod_cast h3.trans hn.2

theorem nbCos [Libm F64] (hL : LibmAcc) (h : Ang x θ e A) (hn : e + 1 / 2 ^ 50 ≤ E ∧ A ≤ 2 ^ 30) :
    NB (Libm.cos x) (Real.cos θ) E 1 := by
  obtain ⟨r, h1, h2, h3⟩ := h
  refine ⟨((hL.cos x r h1 ?_).shift h2.cos).mono (by linarith [hn.1]), Real.abs_cos_le_one _⟩
  exact_mod_cast h3.trans hn.2

end Ang

/-! ## Reductions -/

theorem truncQ_abs_le (x : ℚ) : |(truncQ x : ℚ)| ≤ |x| ∧ |x - truncQ x| < 1 := by
  unfold truncQ
  split
  · rename_i h
    have h0 : (0 : ℚ) ≤ (⌊-x⌋ : ℤ) := by exact_mod_cast Int.floor_nonneg.mpr (by linarith)
    have h1 := Int.floor_le (-x)
    have h2 := Int.lt_floor_add_one (-x)
    push_cast
    rw [abs_neg, abs_of_nonneg h0, abs_of_neg h]
    refine ⟨h1, ?_⟩
    rw [abs_lt]; constructor <;> linarith
  · rename_i h
    push Not at h
    have h0 : (0 : ℚ) ≤ (⌊x⌋ : ℤ) := by exact_mod_cast Int.floor_nonneg.mpr h
    have h1 := Int.floor_le x
    have h2 := Int.lt_floor_add_one x
    rw [abs_of_nonneg h0, abs_of_nonneg h]
    refine ⟨h1, ?_⟩
    rw [abs_lt]; constructor <;> linarith

theorem rem_bound (a b : ℚ) (hb : b ≠ 0) : |a - b * truncQ (a / b)| < |b| := by
  have h := (truncQ_abs_le (a / b)).2
  have : a - b * truncQ (a / b) = b * (a / b - truncQ (a / b)) := by field_simp
  rw [this, abs_mul]
  have := abs_pos.mpr hb
  nlinarith

theorem as2r_is : ∃ c : ℚ, Is (AS2R : F64) c ∧ |(c : ℝ) - arcsec| ≤ 1 / 10 ^ 21 ∧ |(c : ℝ)| ≤ 4.8482e-6 := by
  have h := (Near.lit (4.848136811095359935899141e-6) (M := 4.8482e-6) (by norm_num [abs_le]) (by norm_num))
  obtain ⟨r, h1, h2⟩ := h
  have e : (AS2R : F64) = Arith.lit (4.848136811095359935899141e-6) := rfl
  refine ⟨r, h1, ?_, ?_⟩
  · have h3 := as2r_close
    have e2 : (AS2R : ℝ) = ((4.848136811095359935899141e-6 : ℚ) : ℝ) := by unfold AS2R; simp
    rw [e2] at h3
    have : (r : ℝ) - arcsec = (r - ((4.848136811095359935899141e-6 : ℚ) : ℝ)) + (((4.848136811095359935899141e-6 : ℚ) : ℝ) - arcsec) := by ring
    rw [this]
    refine (abs_add_le _ _).trans ((add_le_add h2 h3).trans ?_)
    norm_num
  · have h3 := abs_le.mp h2
    norm_num at h3
    rw [abs_le]
    norm_num
    constructor <;> linarith

theorem two_pi_q : ∃ c : ℚ, Is (TWO_PI : F64) c ∧ |(c : ℝ) - 2 * Real.pi| ≤ 8 / 10 ^ 16 ∧ 6.28 ≤ c ∧ c ≤ 6.2832 := by
  have h := (Near.lit (6.283185307179586476925287) (M := 6.3) (by norm_num [abs_le]) (by norm_num))
  obtain ⟨r, h1, h2⟩ := h
  have h3 := two_pi_close
  have e2 : (TWO_PI : ℝ) = ((6.283185307179586476925287 : ℚ) : ℝ) := by unfold TWO_PI; simp
  rw [e2] at h3
  have h4 := abs_le.mp h2
  refine ⟨r, h1, ?_, ?_, ?_⟩
  · have : (r : ℝ) - 2 * Real.pi = (r - ((6.283185307179586476925287 : ℚ) : ℝ)) + (((6.283185307179586476925287 : ℚ) : ℝ) - 2 * Real.pi) := by ring
    rw [this]
    refine (abs_add_le _ _).trans ((add_le_add h2 h3).trans ?_)
    norm_num
  · have : (6.28 : ℝ) ≤ r := by norm_num at h4 ⊢; linarith
    exact_mod_cast (by push_cast; exact this : ((6.28 : ℚ) : ℝ) ≤ r)
  · have : (r : ℝ) ≤ 6.2832 := by norm_num at h4 ⊢; linarith
    exact_mod_cast (by push_cast; exact this : (r : ℝ) ≤ ((6.2832 : ℚ) : ℝ))

theorem turnas_is : Is (TURNAS : F64) 1296000 := by
  have := Is.lit_int 1296000 (by norm_num)
  push_cast at this
  have e : (TURNAS : F64) = Arith.lit 1296000 := by unfold TURNAS; norm_num
  rw [e]; exact this

/-- `(x % TURNAS) * AS2R` for a computed number of arcseconds `x`. -/
theorem ang_turn {x : F64} {q e A E : ℝ} (h : NB x q e A)
    (hE : e * 4.8482e-6 + 4 / 10 ^ 15 ≤ E) : Ang ((x %. TURNAS) *. AS2R) (q * arcsec) E 6.2833 := by
  obtain ⟨r, h1, h2, -⟩ := h.exists_is
  obtain ⟨c, c1, c2, c3⟩ := as2r_is
  have hb := rem_bound r 1296000 (by norm_num)
  set k := truncQ (r / 1296000) with hk
  have h3 : Is (x %. TURNAS) (r - 1296000 * k) := h1.rem turnas_is (by norm_num)
  set ρ := r - 1296000 * (k : ℚ) with hρ
  have hb' : |(ρ : ℝ)| ≤ 1296000 := by
    have : |ρ| ≤ 1296000 := by rw [abs_of_pos (show (0 : ℚ) < 1296000 by norm_num)] at hb; exact hb.le
    exact_mod_cast this
  have m : |((ρ * c : ℚ) : ℝ)| ≤ 6.28327 := by
    push_cast; rw [abs_mul]
    calc _ ≤ 1296000 * 4.8482e-6 := mul_le_mul hb' c3 (abs_nonneg _) (by norm_num)
      _ ≤ _ := by norm_num
  have hr := RN_err_real m
  have ha : |arcsec| ≤ 4.8482e-6 := by
    unfold arcsec
    have := Real.pi_pos
    have := Real.pi_lt_d6
    rw [abs_of_pos (by positivity), div_le_iff₀ (by norm_num)]
    norm_num at *
    linarith
  refine ⟨_, h3.mul c1 (huge_of_real m (by norm_num)), ⟨k, ?_⟩, ?_⟩
  · have e0 := h.e_nonneg
    have e1 : ((RN (ρ * c) : ℚ) : ℝ) - (q * arcsec - k * (2 * Real.pi)) =
        (((RN (ρ * c) : ℚ) : ℝ) - ((ρ * c : ℚ) : ℝ)) + ρ * (c - arcsec) + (r - q) * arcsec := by
      have : (ρ : ℝ) = r - 1296000 * k := by rw [hρ]; push_cast; rfl
      push_cast
      rw [this]
      unfold arcsec; ring
    rw [e1]
    refine (abs_add_le _ _).trans ?_
    refine (add_le_add_left (abs_add_le _ _) _).trans ?_
    rw [abs_mul, abs_mul]
    have g1 : |(ρ : ℝ)| * |(c : ℝ) - arcsec| ≤ 1296000 * (1 / 10 ^ 21) := mul_le_mul hb' c2 (abs_nonneg _) (by norm_num)
    have g2 : |(r : ℝ) - q| * |arcsec| ≤ e * 4.8482e-6 := mul_le_mul h2 ha (abs_nonneg _) e0
    norm_num at hr g1 g2 hE ⊢
    linarith
  · have : ((RN (ρ * c) : ℚ) : ℝ) = ((ρ * c : ℚ) : ℝ) + (((RN (ρ * c) : ℚ) : ℝ) - ((ρ * c : ℚ) : ℝ)) := by ring
    rw [this]
    refine (abs_add_le _ _).trans ((add_le_add m hr).trans ?_)
    norm_num

/-- `x % TWO_PI` for an angle. -/
theorem Ang.rem {x : F64} {θ e A E : ℝ} (h : Ang x θ e A) (hE : e + A * (2 / 10 ^ 16) ≤ E) :
    Ang (x %. TWO_PI) θ E 6.2832 := by
  have A0 := h.M_nonneg
  obtain ⟨r, h1, ⟨k, h2⟩, h3⟩ := h
  obtain ⟨c, c1, c2, c3, c4⟩ := two_pi_q
  have c0 : c ≠ 0 := by intro h0; rw [h0] at c3; norm_num at c3
  have hb := rem_bound r c c0
  have hc3 : (6.28 : ℝ) ≤ c := by
    have := (Rat.cast_le (K := ℝ)).mpr c3
    norm_num at this ⊢
    exact this
  have hk := (truncQ_abs_le (r / c)).1
  set l := truncQ (r / c) with hl
  have hkl : |(l : ℝ)| ≤ A / 6 := by
    have h4 : |(l : ℝ)| ≤ |(r : ℝ)| / c := by
      have : (0 : ℚ) < c := by linarith
      rw [abs_div, abs_of_pos this] at hk
      exact_mod_cast hk
    refine h4.trans ?_
    exact div_le_div₀ A0 h3 (by norm_num) (by linarith)
  refine ⟨_, h1.rem c1 c0, ⟨k + l, ?_⟩, ?_⟩
  · push_cast
    have : (r : ℝ) - c * l - (θ - (k + l) * (2 * Real.pi)) = (r - (θ - k * (2 * Real.pi))) - l * (c - 2 * Real.pi) := by ring
    rw [this]
    refine (abs_sub _ _).trans ?_
    rw [abs_mul]
    have : |(l : ℝ)| * |(c : ℝ) - 2 * Real.pi| ≤ A / 6 * (8 / 10 ^ 16) :=
      mul_le_mul hkl c2 (abs_nonneg _) (by positivity)
    nlinarith
  · have h4 : |r - c * (l : ℚ)| ≤ 6.2832 := by
      rw [abs_of_pos (show (0 : ℚ) < c by linarith)] at hb
      linarith
    have := (Rat.cast_le (K := ℝ)).mpr h4
    push_cast at this ⊢
    exact this

end Verif
