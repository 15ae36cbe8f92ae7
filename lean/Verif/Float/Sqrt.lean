import Verif.Float.Near
import Mathlib.Analysis.Real.Sqrt

/-!
# Accuracy of `f64::sqrt` and of division
-/

namespace Verif
open Arith F64

/-- Core of the rounding of a square root, on abstract numbers. -/
theorem sqrt_core (K e f : ℕ) (hlow : 2 ^ (e + 52) ≤ Nat.sqrt K) (hup : Nat.sqrt K < 2 ^ (e + 53))
    (hf1 : f * f ≤ K / 4 ^ e) (hf2 : K / 4 ^ e < (f + 1) * (f + 1)) :
    let r := (if 4 * K < (2 * f + 1) ^ 2 * 4 ^ e then f
       else if (2 * f + 1) ^ 2 * 4 ^ e < 4 * K then f + 1
       else f + f % 2) * 2 ^ e
    RepNat r ∧ |(r : ℝ) - Real.sqrt K| ≤ Real.sqrt K / 2 ^ 53 ∧ r ≤ 2 * Nat.sqrt K := by
  intro r
  have h4 : ∀ k : ℕ, (4 : ℕ) ^ k = 2 ^ k * 2 ^ k := fun k => by
    rw [← mul_pow]; norm_num
  have hff1 : f * f * 4 ^ e ≤ K := (Nat.mul_le_mul_right _ hf1).trans (Nat.div_mul_le_self _ _)
  have hff2 : K < (f + 1) * (f + 1) * 4 ^ e := by
    have := Nat.lt_mul_of_div_lt hf2 (pow_pos (by norm_num : 0 < 4) e)
    rw [mul_comm] at this
    linarith
  have hfle : f < 2 ^ 53 := by
    by_contra hcon
    push Not at hcon
    have h1 : K < (Nat.sqrt K + 1) * (Nat.sqrt K + 1) := Nat.lt_succ_sqrt K
    have h2 : (Nat.sqrt K + 1) * (Nat.sqrt K + 1) ≤ 2 ^ (e + 53) * 2 ^ (e + 53) := Nat.mul_le_mul hup hup
    have h3 : 2 ^ (e + 53) * 2 ^ (e + 53) = 2 ^ 53 * 2 ^ 53 * 4 ^ e := by rw [h4, pow_add]; ring
    have h5 : 2 ^ 53 * 2 ^ 53 * 4 ^ e ≤ f * f * 4 ^ e :=
      Nat.mul_le_mul_right _ (Nat.mul_le_mul hcon hcon)
    omega
  have hr1 : Real.sqrt K = Real.sqrt K := rfl
  set S := Real.sqrt (K : ℝ) with hS
  have hS0 : 0 ≤ S := Real.sqrt_nonneg _
  have E0 : (0 : ℝ) < 2 ^ e := by positivity
  have h4r : ((4 : ℝ) ^ e) = 2 ^ e * 2 ^ e := by rw [← mul_pow]; norm_num
  have hSlow : (2 : ℝ) ^ e * 2 ^ 52 ≤ S := by
    rw [← pow_add]
    have h1 := (Nat.cast_le (α := ℝ)).mpr hlow
    push_cast at h1
    refine h1.trans ?_
    exact Real.nat_sqrt_le_real_sqrt
  have le_of : ∀ g : ℝ, 0 ≤ g → g * g * 4 ^ e ≤ K → g * 2 ^ e ≤ S := by
    intro g _ h
    apply Real.le_sqrt_of_sq_le
    rw [h4r] at h
    calc (g * 2 ^ e) ^ 2 = g * g * (2 ^ e * 2 ^ e) := by ring
      _ ≤ _ := h
  have ge_of : ∀ g : ℝ, 0 ≤ g → (K : ℝ) ≤ g * g * 4 ^ e → S ≤ g * 2 ^ e := by
    intro g hg h
    apply Real.sqrt_le_iff.mpr
    refine ⟨mul_nonneg hg E0.le, ?_⟩
    rw [h4r] at h
    calc (K : ℝ) ≤ g * g * (2 ^ e * 2 ^ e) := h
      _ = _ := by ring
  have f0 : (0 : ℝ) ≤ f := Nat.cast_nonneg f
  have g1 : (f : ℝ) * 2 ^ e ≤ S := le_of f (Nat.cast_nonneg _) (by
    have := (Nat.cast_le (α := ℝ)).mpr hff1
    push_cast at this
    exact this)
  have g2 : S ≤ (f + 1) * 2 ^ e := ge_of (f + 1) (by linarith only [f0]) (by
    have := (Nat.cast_le (α := ℝ)).mpr hff2.le
    push_cast at this
    exact this)
  have c1 : 4 * K ≤ (2 * f + 1) ^ 2 * 4 ^ e → S ≤ (f + 1 / 2) * 2 ^ e := by
    intro h
    refine ge_of _ (by linarith only [f0]) ?_
    have := (Nat.cast_le (α := ℝ)).mpr h
    push_cast at this
    linarith
  have c2 : (2 * f + 1) ^ 2 * 4 ^ e ≤ 4 * K → (f + 1 / 2) * 2 ^ e ≤ S := by
    intro h
    refine le_of _ (by linarith only [f0]) ?_
    have := (Nat.cast_le (α := ℝ)).mpr h
    push_cast at this
    linarith
  have fin : ∀ r : ℕ, r ≤ f + 1 → |(r : ℝ) * 2 ^ e - S| ≤ 2 ^ e / 2 →
      RepNat (r * 2 ^ e) ∧ |((r * 2 ^ e : ℕ) : ℝ) - S| ≤ S / 2 ^ 53 ∧ r * 2 ^ e ≤ 2 * Nat.sqrt K := by
    intro r hr h
    refine ⟨repNat_of r e (by omega), ?_, ?_⟩
    · push_cast
      refine h.trans ?_
      rw [div_le_div_iff₀ (by norm_num) (by norm_num)]
      calc (2 : ℝ) ^ e * 2 ^ 53 = 2 ^ e * 2 ^ 52 * 2 := by ring
        _ ≤ S * 2 := by gcongr
    · have h1 : r * 2 ^ e ≤ 2 ^ 53 * 2 ^ e := Nat.mul_le_mul_right _ (by omega)
      have h2 : 2 ^ 53 * 2 ^ e = 2 * 2 ^ (e + 52) := by rw [pow_add]; ring
      omega
  clear_value S
  show RepNat ((if 4 * K < (2 * f + 1) ^ 2 * 4 ^ e then f
       else if (2 * f + 1) ^ 2 * 4 ^ e < 4 * K then f + 1
       else f + f % 2) * 2 ^ e) ∧ _
  by_cases h : 4 * K < (2 * f + 1) ^ 2 * 4 ^ e
  · have e1 : r = f * 2 ^ e := by simp only [r]; rw [if_pos h]
    rw [if_pos h, e1]
    refine fin f (by omega) ?_
    have := c1 h.le
    rw [abs_le]; constructor <;> linarith
  · have h' := c2 (by omega)
    by_cases h2 : (2 * f + 1) ^ 2 * 4 ^ e < 4 * K
    · have e1 : r = (f + 1) * 2 ^ e := by simp only [r]; rw [if_neg h, if_pos h2]
      rw [if_neg h, if_pos h2, e1]
      refine fin (f + 1) le_rfl ?_
      push_cast
      rw [abs_le]; constructor <;> linarith
    · have h2' := c1 (by omega)
      have e1 : r = (f + f % 2) * 2 ^ e := by simp only [r]; rw [if_neg h, if_neg h2]
      rw [if_neg h, if_neg h2, e1]
      refine fin (f + f % 2) (by omega) ?_
      rcases Nat.mod_two_eq_zero_or_one f with hm | hm <;> rw [hm] <;> push_cast <;>
        rw [abs_le] <;> constructor <;> linarith

theorem sqrtMag_spec (n : ℕ) (hn : 0 < n) : RepNat (sqrtMag n) ∧
    |(sqrtMag n : ℝ) - Real.sqrt (n * UN : ℕ)| ≤ Real.sqrt (n * UN : ℕ) / 2 ^ 53 ∧
    sqrtMag n ≤ 2 * Nat.sqrt (n * UN) := by
  have hKU : UN ≤ n * UN := Nat.le_mul_of_pos_left _ hn
  have hs1 : 2 ^ 537 ≤ Nat.sqrt (n * UN) := by
    rw [Nat.le_sqrt]
    have : (2 : ℕ) ^ 537 * 2 ^ 537 = UN := by
      rw [UN_eq_pow _ rfl, ← pow_add]
    rw [this]; exact hKU
  have he0 : 0 < ulpExp (Nat.sqrt (n * UN)) := by
    have := ulpExp_mono hs1
    have h2 : ulpExp (2 ^ 537) = 485 := by
      unfold ulpExp
      rw [Nat.log2_two_pow]
    omega
  exact sqrt_core (n * UN) _ _ (two_pow_ulp_le _ he0) (lt_two_pow_ulp _) (Nat.sqrt_le _) (Nat.lt_succ_sqrt _)

theorem sqrt_lt_core (a b c n s : ℕ) (hab : a + b = c + c) (hc : c + 1 ≤ a) (hn : n < 2 ^ a)
    (hs : s ≤ 2 * Nat.sqrt (n * 2 ^ b)) : s < 2 ^ a := by
  have a1 : Nat.sqrt (n * 2 ^ b) < 2 ^ c := by
    rw [Nat.sqrt_lt]
    have : n * 2 ^ b < 2 ^ a * 2 ^ b := Nat.mul_lt_mul_of_pos_right hn (by positivity)
    rwa [← pow_add, hab, pow_add] at this
  have a2 : 2 * 2 ^ c ≤ 2 ^ a := by
    rw [← pow_succ']
    exact Nat.pow_le_pow_right (by norm_num) hc
  omega

theorem sqrtMag_lt (n : ℕ) (hn : 0 < n) (h : n < OVN) : sqrtMag n < OVN := by
  have h3 := (sqrtMag_spec n hn).2.2
  rw [OVN_eq_pow _ rfl] at h ⊢
  rw [UN_eq_pow _ rfl] at h3
  exact sqrt_lt_core 2098 1074 1586 n _ rfl (by norm_num) h h3

/-- `f64::sqrt` of a finite number that is not negative: finite, and correct to half a unit in the last place. -/
theorem Is.sqrt {x : F64} {a : ℚ} (h : Is x a) (ha : 0 ≤ a) :
    ∃ r : ℚ, Is (Arith.sqrt x) r ∧ 0 ≤ r ∧ |(r : ℝ) - Real.sqrt a| ≤ Real.sqrt a / 2 ^ 53 := by
  obtain ⟨hf, rfl⟩ := h
  match x, hf with
  | .fin s n hn, _ =>
    by_cases h0 : n = 0
    · subst h0
      refine ⟨0, ?_, le_rfl, ?_⟩
      · have : (Arith.sqrt (F64.fin s 0 hn) : F64) = F64.zero s := by
          show F64.sqrt (F64.fin s 0 hn) = _
          unfold F64.sqrt
          simp
        rw [this]
        exact ⟨(zero_spec s).1, (zero_spec s).2⟩
      · have : v (F64.fin s 0 hn) = 0 := by
          unfold v sval
          cases s <;> simp
        rw [this]; simp
    · have hs : s = false := by
        cases s with
        | false => rfl
        | true =>
          exfalso
          have hU := U_pos
          have : v (F64.fin true n hn) < 0 := by
            unfold v sval
            simp only [if_true]
            push_cast
            rw [neg_div]
            have : (0 : ℚ) < n := by exact_mod_cast Nat.pos_of_ne_zero h0
            have : (0 : ℚ) < n / U := by positivity
            linarith
          linarith
      subst hs
      obtain ⟨h1, h2, h3⟩ := sqrtMag_spec n (Nat.pos_of_ne_zero h0)
      have hlt : sqrtMag n < OVN := sqrtMag_lt n (Nat.pos_of_ne_zero h0) hn.2
      have e : (Arith.sqrt (F64.fin false n hn) : F64) = ofQuot false (sqrtMag n) 1 := by
        show F64.sqrt (F64.fin false n hn) = _
        unfold F64.sqrt
        simp [h0]
      have sp := ofQuot_exact false (sqrtMag n) h1 hlt
      refine ⟨(sqrtMag n : ℚ) / U, ?_, ?_, ?_⟩
      · rw [e, sp]
        refine ⟨rfl, ?_⟩
        simp [v, sval]
      · have := U_pos; positivity
      · have hUq : (UN : ℚ) = U := rfl
        have hUr : ((U : ℚ) : ℝ) = (UN : ℝ) := by rw [← hUq]; push_cast; rfl
        have hU0 : (0 : ℝ) < (UN : ℝ) := by exact_mod_cast UN_pos
        have ev : ((v (F64.fin false n hn) : ℚ) : ℝ) = n / UN := by
          simp only [v, sval, Bool.false_eq_true, if_false]
          push_cast
          rw [hUr]
        have es : Real.sqrt ((n : ℝ) / UN) = Real.sqrt ((n * UN : ℕ) : ℝ) / UN := by
          push_cast
          rw [eq_div_iff hU0.ne']
          rw [show (n : ℝ) * UN = n / UN * (UN * UN) by field_simp, Real.sqrt_mul (by positivity),
            Real.sqrt_mul_self hU0.le]
        rw [ev, es]
        push_cast [hUr] at h2 ⊢
        have : ((sqrtMag n : ℝ) / UN - Real.sqrt (n * UN) / UN) = (sqrtMag n - Real.sqrt (n * UN)) / UN := by ring
        rw [this, abs_div, abs_of_pos hU0]
        calc _ ≤ (Real.sqrt (n * UN) / 2 ^ 53) / UN := div_le_div_of_nonneg_right h2 hU0.le
          _ = _ := by ring

end Verif
