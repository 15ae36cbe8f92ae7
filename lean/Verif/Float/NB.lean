import Verif.Float.Sqrt

/-!
# A small interval calculus for binary64 computations

`NB x q e M`: `x` is finite, within `e` of the real number `q`, and `|q| ≤ M`.  Each rule has one numeric side condition.
-/

namespace Verif
open Arith F64

/-- `x` is finite, within `e` of `q`, and `|q| ≤ M`. -/
structure NB (x : F64) (q e M : ℝ) : Prop where
  near : Near x q e
  mag : |q| ≤ M

namespace NB
variable {x y : F64} {a b e e' E A B M : ℝ}

theorem e_nonneg (h : NB x a e A) : 0 ≤ e := h.near.e_nonneg
theorem M_nonneg (h : NB x a e A) : 0 ≤ A := (abs_nonneg _).trans h.mag

theorem mono (h : NB x a e A) (hn : e ≤ E ∧ A ≤ M) : NB x a E M := ⟨h.near.mono hn.1, h.mag.trans hn.2⟩

theorem congr (h : NB x a e A) (hab : a = b) : NB x b e A := hab ▸ h

theorem of_is {q : ℚ} (h : Is x q) (hM : |(q : ℝ)| ≤ M) : NB x q 0 M := ⟨Near.of_is h, hM⟩

theorem of_is' {q : ℚ} (h : Is x q) (hq : (q : ℝ) = a) (hM : |a| ≤ M) : NB x a 0 M := by
  subst hq; exact of_is h hM

/-- The value of the float itself. -/
theorem exists_is (h : NB x a e A) : ∃ r : ℚ, Is x r ∧ |(r : ℝ) - a| ≤ e ∧ |(r : ℝ)| ≤ A + e := by
  obtain ⟨r, h1, h2⟩ := h.near
  refine ⟨r, h1, h2, ?_⟩
  have : (r : ℝ) = a + (r - a) := by ring
  rw [this]
  exact (abs_add_le _ _).trans (add_le_add h.mag h2)

theorem add (hx : NB x a e A) (hy : NB y b e' B)
    (h : e + e' + (A + B + e + e') / 2 ^ 53 + 1 / 2 ^ 100 ≤ E ∧ A + B ≤ M ∧ A + B + e + e' ≤ 2 ^ 200) :
    NB (x +. y) (a + b) E M := by
  have hab := (abs_add_le a b).trans (add_le_add hx.mag hy.mag)
  exact ⟨(hx.near.add hy.near (M := A + B + e + e') (by linarith) h.2.2).mono h.1, hab.trans h.2.1⟩

theorem sub (hx : NB x a e A) (hy : NB y b e' B)
    (h : e + e' + (A + B + e + e') / 2 ^ 53 + 1 / 2 ^ 100 ≤ E ∧ A + B ≤ M ∧ A + B + e + e' ≤ 2 ^ 200) :
    NB (x -. y) (a - b) E M := by
  have hab := (abs_sub a b).trans (add_le_add hx.mag hy.mag)
  exact ⟨(hx.near.sub hy.near (M := A + B + e + e') (by linarith) h.2.2).mono h.1, hab.trans h.2.1⟩

theorem neg (hx : NB x a e A) : NB (Arith.neg x) (-a) e A := ⟨hx.near.neg, by rw [abs_neg]; exact hx.mag⟩

theorem mul (hx : NB x a e A) (hy : NB y b e' B)
    (h : A * e' + B * e + e * e' + (A * B + (A * e' + B * e + e * e')) / 2 ^ 53 + 1 / 2 ^ 100 ≤ E ∧ A * B ≤ M ∧
      A * B + (A * e' + B * e + e * e') ≤ 2 ^ 200) :
    NB (x *. y) (a * b) E M := by
  have hab : |a * b| ≤ A * B := by
    rw [abs_mul]; exact mul_le_mul hx.mag hy.mag (abs_nonneg _) hx.M_nonneg
  exact ⟨(hx.near.mul hy.near hx.mag hy.mag le_rfl le_rfl h.2.2).mono h.1, hab.trans h.2.1⟩

theorem lit (q : ℚ) (h : |(q : ℝ)| ≤ M ∧ M / 2 ^ 53 + 1 / 2 ^ 100 ≤ E ∧ M ≤ 2 ^ 200) : NB (Arith.lit q) q E M :=
  ⟨(Near.lit q h.1 h.2.2).mono h.2.1, h.1⟩

theorem lit' (q : ℚ) (hq : (q : ℝ) = a) (h : |a| ≤ M ∧ M / 2 ^ 53 + 1 / 2 ^ 100 ≤ E ∧ M ≤ 2 ^ 200) :
    NB (Arith.lit q) a E M := by subst hq; exact lit q h

/-- Division; `β` is a lower bound for the magnitude of the exact divisor. -/
theorem div {β : ℝ} (hx : NB x a e A) (hy : NB y b e' B) (hβ : β ≤ |b|) (hβ' : e' < β)
    (h : e / (β - e') + A * e' / ((β - e') * β) + (A / β + (e / (β - e') + A * e' / ((β - e') * β))) / 2 ^ 53
        + 1 / 2 ^ 100 ≤ E ∧ A / β ≤ M ∧ A / β + (e / (β - e') + A * e' / ((β - e') * β)) ≤ 2 ^ 200) :
    NB (x /. y) (a / b) E M := by
  have e0 := hx.e_nonneg
  have e0' := hy.e_nonneg
  have hA := hx.mag
  have A0 := hx.M_nonneg
  obtain ⟨r, hr, hr'⟩ := hx.near
  obtain ⟨s, hs, hs'⟩ := hy.near
  have β0 : 0 < β := lt_of_le_of_lt e0' hβ'
  have γ0 : 0 < β - e' := by linarith
  have b0 : b ≠ 0 := by intro h0; rw [h0, abs_zero] at hβ; linarith
  have hsb : β - e' ≤ |(s : ℝ)| := by
    have := abs_sub_abs_le_abs_sub b (s : ℝ)
    rw [abs_sub_comm] at this
    linarith
  have s0 : (s : ℝ) ≠ 0 := by intro h0; rw [h0, abs_zero] at hsb; linarith
  have s0' : s ≠ 0 := by exact_mod_cast s0
  have d : |((r / s : ℚ) : ℝ) - a / b| ≤ e / (β - e') + A * e' / ((β - e') * β) := by
    push_cast
    have : (r : ℝ) / s - a / b = (r - a) / s + a * (b - s) / (s * b) := by field_simp; ring
    rw [this]
    refine (abs_add_le _ _).trans (add_le_add ?_ ?_)
    · rw [abs_div]; exact div_le_div₀ e0 hr' γ0 hsb
    · rw [abs_div, abs_mul, abs_mul]
      refine div_le_div₀ (by positivity) ?_ (by positivity) ?_
      · rw [abs_sub_comm b]; exact mul_le_mul hA hs' (abs_nonneg _) A0
      · exact mul_le_mul hsb hβ β0.le (abs_nonneg _)
  have mab : |a / b| ≤ A / β := by rw [abs_div]; exact div_le_div₀ A0 hA β0 hβ
  have m : |((r / s : ℚ) : ℝ)| ≤ A / β + (e / (β - e') + A * e' / ((β - e') * β)) := by
    have : ((r / s : ℚ) : ℝ) = a / b + (((r / s : ℚ) : ℝ) - a / b) := by ring
    rw [this]
    exact (abs_add_le _ _).trans (add_le_add mab d)
  refine ⟨⟨_, hr.div hs s0' (huge_of_real m h.2.2), ?_⟩, mab.trans h.2.1⟩
  have h1 := RN_err_real m
  have : ((RN (r / s) : ℚ) : ℝ) - a / b
    = (((RN (r / s) : ℚ) : ℝ) - ((r / s : ℚ) : ℝ)) + (((r / s : ℚ) : ℝ) - a / b) := by ring
  rw [this]
  refine (abs_add_le _ _).trans ?_
  linarith [h.1]

/-- Square root of a number bounded away from zero: `β ^ 2` is a lower bound for the exact argument, `C` an upper bound
for its root. -/
theorem sqrt {β C : ℝ} (hx : NB x a e A) (hβ : 0 < β) (hβ' : β ^ 2 ≤ a) (he : e ≤ β ^ 2)
    (hC : 0 ≤ C) (hC' : A ≤ C ^ 2)
    (h : e / β + (C + e / β) / 2 ^ 53 ≤ E ∧ C ≤ M) : NB (Arith.sqrt x) (Real.sqrt a) E M := by
  have e0 := hx.e_nonneg
  have a0 : 0 ≤ a := (by positivity : (0 : ℝ) ≤ β ^ 2).trans hβ'
  have hA := hx.mag
  rw [abs_of_nonneg a0] at hA
  obtain ⟨r, hr, hr'⟩ := hx.near
  have r0 : (0 : ℝ) ≤ r := by
    have := (abs_le.mp hr').1
    linarith
  obtain ⟨s, hs, s0, hs'⟩ := hr.sqrt (by exact_mod_cast r0)
  have hsb : β ≤ Real.sqrt a := Real.le_sqrt_of_sq_le hβ'
  have hsC : Real.sqrt a ≤ C := (Real.sqrt_le_sqrt (hA.trans hC')).trans (le_of_eq (Real.sqrt_sq hC))
  have d : |Real.sqrt r - Real.sqrt a| ≤ e / β := by
    have h1 : (Real.sqrt r - Real.sqrt a) * (Real.sqrt r + Real.sqrt a) = r - a := by
      have h2 := Real.mul_self_sqrt r0
      have h3 := Real.mul_self_sqrt a0
      linear_combination h2 - h3
    have h2 : β ≤ Real.sqrt r + Real.sqrt a := by linarith [Real.sqrt_nonneg (r : ℝ)]
    rw [le_div_iff₀ hβ]
    have h3 : |Real.sqrt r - Real.sqrt a| * |Real.sqrt r + Real.sqrt a| ≤ e := by
      rw [← abs_mul, h1]; exact hr'
    refine le_trans ?_ h3
    refine mul_le_mul_of_nonneg_left ?_ (abs_nonneg _)
    exact h2.trans (le_abs_self _)
  have hrC : Real.sqrt r ≤ C + e / β := by linarith [(abs_le.mp d).2]
  refine ⟨⟨s, hs, ?_⟩, ?_⟩
  · have : (s : ℝ) - Real.sqrt a = (s - Real.sqrt r) + (Real.sqrt r - Real.sqrt a) := by ring
    rw [this]
    refine (abs_add_le _ _).trans ?_
    have : Real.sqrt r / 2 ^ 53 ≤ (C + e / β) / 2 ^ 53 := by gcongr
    linarith [h.1]
  · rw [abs_of_nonneg (Real.sqrt_nonneg _)]; exact hsC.trans h.2

/-- Replace the exact value. -/
theorem shift {d : ℝ} (h : NB x a e A) (hd : |a - b| ≤ d) (hn : e + d ≤ E ∧ A + d ≤ M) : NB x b E M := by
  refine ⟨(h.near.shift hd).mono hn.1, ?_⟩
  have : b = a - (a - b) := by ring
  rw [this]
  exact (abs_sub _ _).trans ((add_le_add h.mag hd).trans hn.2)

theorem remag (h : NB x a e A) (hM : |a| ≤ M) : NB x a e M := ⟨h.near, hM⟩

/-- `f64::from(i32)` for small integers. -/
theorem ofInt (n : ℤ) (h : |(n : ℝ)| ≤ M) (hM : M ≤ 2 ^ 53) : NB (Arith.ofInt n) (n : ℝ) 0 M := by
  have hn : |n| ≤ 2 ^ 53 := by exact_mod_cast h.trans hM
  have := NB.of_is (Is.ofInt n (by exact_mod_cast hn)) (M := M) (by push_cast; exact h)
  push_cast at this
  exact this

end NB

/-- A left fold of additions. -/
theorem fold_near {β : Type} (f : β → F64) (q e m : β → ℝ) (L : List β) (R η : ℝ) (hη : η = R / 2 ^ 53 + 1 / 2 ^ 100)
    (hR0 : 0 ≤ R) (hR : R ≤ 2 ^ 200) (hf : ∀ b ∈ L, NB (f b) (q b) (e b) (m b)) (acc : F64) (a ea A : ℝ) (ha : NB acc a ea A)
    (hb : A + (L.map m).sum + ea + (L.map e).sum + L.length * η ≤ R) :
    NB (L.foldl (fun s b => s +. f b) acc) (a + (L.map q).sum) (ea + (L.map e).sum + L.length * η)
      (A + (L.map m).sum) := by
  induction L generalizing acc a ea A with
  | nil => simpa using ha
  | cons b L ih =>
    have hb1 := hf b List.mem_cons_self
    have η0 : 0 ≤ η := by rw [hη]; positivity
    simp only [List.map_cons, List.sum_cons, List.length_cons, List.foldl_cons] at hb ⊢
    push_cast at hb ⊢
    have lη : 0 ≤ (L.length : ℝ) * η := by positivity
    have s1 : 0 ≤ (L.map m).sum := List.sum_nonneg (by
      intro z hz; obtain ⟨c, hc, rfl⟩ := List.mem_map.mp hz
      exact (hf c (List.mem_cons_of_mem _ hc)).M_nonneg)
    have s2 : 0 ≤ (L.map e).sum := List.sum_nonneg (by
      intro z hz; obtain ⟨c, hc, rfl⟩ := List.mem_map.mp hz
      exact (hf c (List.mem_cons_of_mem _ hc)).e_nonneg)
    have h1 : NB (acc +. f b) (a + q b) (ea + e b + η) (A + m b) := by
      refine ha.add hb1 ⟨?_, le_rfl, ?_⟩
      · rw [hη]
        have : (A + m b + ea + e b) / 2 ^ 53 ≤ R / 2 ^ 53 := by gcongr; nlinarith
        linarith
      · nlinarith
    have h2 := ih (fun c hc => hf c (List.mem_cons_of_mem _ hc)) _ _ _ _ h1 (by linarith)
    refine (h2.congr (by ring)).mono ⟨le_of_eq (by ring), le_of_eq (by ring)⟩

end Verif
