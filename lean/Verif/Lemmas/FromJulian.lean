import Verif.Lemmas.SplitF64
import Verif.Lemmas.SplitReal
import Verif.Lemmas.OfDay
import Verif.Lemmas.FinF64

/-!
# `from_julian`, both parts together
-/

namespace Verif
open F64 Spec

theorem lit_neg32000_is : Is (GregorianDate.DJ_MIN : F64) (-32000) := by
  have h : (-32000.0 : ℚ) = ((-32000 : ℤ) : ℚ) := by norm_num
  have := Is.lit_int (-32000) (by norm_num)
  unfold GregorianDate.DJ_MIN
  rw [h]
  exact this.congr (by norm_num)

theorem lit_1e9_is : Is (GregorianDate.DJ_MAX : F64) 1000000000 := by
  have h : (1e9 : ℚ) = ((1000000000 : ℤ) : ℚ) := by norm_num
  have := Is.lit_int 1000000000 (by norm_num)
  unfold GregorianDate.DJ_MAX
  rw [h]
  exact this.congr (by norm_num)

/-- The rounded sum and the exact sum are within `2^-24` for sums up to `2^30`. -/
theorem rn_close {x : ℚ} (h : |RN x| ≤ 1000000000) : |RN x - x| ≤ 1 / 2 ^ 20 := by
  have hx : |x| ≤ 2 ^ 30 := by
    by_contra hc
    push Not at hc
    have : (2 : ℚ) ^ 30 ≤ RN |x| := le_RN_of_le (by
      have := RepQ.int (2 ^ 30) (by norm_num)
      push_cast at this; exact this) hc.le
    rw [RN_abs] at this
    have e : (1000000000 : ℚ) < 2 ^ 30 := by norm_num
    linarith
  have := RN_err_grid x (-23) (by norm_num) (hx.trans (by norm_num))
  exact this.trans (by norm_num)

/-- What `from_julian` computes on accepted finite input. -/
theorem fromJulian_f64 (p : Profile) {x y : F64} {a b : ℚ} (hx : Is x a) (hy : Is y b)
    (hlo : ((GregorianDate.DJ_MIN : F64) <=. (x +. y)) = true)
    (hhi : ((x +. y) <=. (GregorianDate.DJ_MAX : F64)) = true) :
    ∃ (D : ℤ) (f : F64) (q e : ℚ), Is f q ∧ 0 ≤ q ∧ q ≤ 1 ∧ (D : ℚ) + q = a + b - 1 / 2 + e ∧
      |e| ≤ (|min a b| + 3) / 2 ^ 53 ∧ |e| ≤ 1 / 2 + 1 / 2 ^ 52 ∧
      |a + b - RN (a + b)| ≤ 1 / 2 ^ 20 ∧ -32000 ≤ RN (a + b) ∧ RN (a + b) ≤ 1000000000 ∧
      Is (x +. y) (RN (a + b)) ∧
      (∀ (j : ℕ) (k l : ℤ), j + 1 ≤ 52 → a = k / 2 ^ (j + 1) → b = l / 2 ^ (j + 1) →
        |min a b - 1 / 2| * 2 ^ (j + 1) ≤ 2 ^ 53 → e = 0 ∧ q < 1) ∧
      GregorianDate.fromJulian p x y =
        (GregorianDate.ofDay p (D + 1)).map (fun d => Except.ok (d, f)) := by
  obtain ⟨hs, h1, h2⟩ := add_between hx hy lit_neg32000_is lit_1e9_is hlo hhi
  have hcl : |RN (a + b) - (a + b)| ≤ 1 / 2 ^ 20 := rn_close (by
    rw [abs_le]; constructor <;> linarith)
  have hcl' := abs_le.mp hcl
  have hab : |a + b| ≤ 2 ^ 40 := by
    rw [abs_le]
    norm_num at hcl' ⊢
    constructor <;> linarith [hcl'.1, hcl'.2]
  have hnorej : ((x +. y) <. (GregorianDate.DJ_MIN : F64)) = false ∧
      ((GregorianDate.DJ_MAX : F64) <. (x +. y)) = false := by
    rw [hs.lt lit_neg32000_is, lit_1e9_is.lt hs]
    simp only [decide_eq_false_iff_not, not_lt]
    exact ⟨h1, h2⟩
  have main : ∀ (c1 c2 : F64) (u w : ℚ), Is c1 u → Is c2 w → u + w = a + b → w = min a b →
      GregorianDate.order x y = (c1, c2) →
      (∀ (j : ℕ) (k l : ℤ), a = k / 2 ^ (j + 1) → b = l / 2 ^ (j + 1) →
        ∃ k' l' : ℤ, u = k' / 2 ^ (j + 1) ∧ w = l' / 2 ^ (j + 1)) →
    ∃ (D : ℤ) (f : F64) (q e : ℚ), Is f q ∧ 0 ≤ q ∧ q ≤ 1 ∧ (D : ℚ) + q = a + b - 1 / 2 + e ∧
      |e| ≤ (|min a b| + 3) / 2 ^ 53 ∧ |e| ≤ 1 / 2 + 1 / 2 ^ 52 ∧
      |a + b - RN (a + b)| ≤ 1 / 2 ^ 20 ∧ -32000 ≤ RN (a + b) ∧ RN (a + b) ≤ 1000000000 ∧
      Is (x +. y) (RN (a + b)) ∧
      (∀ (j : ℕ) (k l : ℤ), j + 1 ≤ 52 → a = k / 2 ^ (j + 1) → b = l / 2 ^ (j + 1) →
        |min a b - 1 / 2| * 2 ^ (j + 1) ≤ 2 ^ 53 → e = 0 ∧ q < 1) ∧
      GregorianDate.fromJulian p x y =
        (GregorianDate.ofDay p (D + 1)).map (fun d => Except.ok (d, f)) := by
    intro c1 c2 u w hu hw hsum hmin hord hdy
    obtain ⟨D, q, e, i1, i2, q0, q1, heq, he1, he2, hex⟩ := split_f64 hu hw (by rw [hsum]; exact hab)
    rw [hsum] at heq
    rw [hmin] at he1
    refine ⟨D, (GregorianDate.split c1 c2).2, q, e, i2, q0, q1, heq, he1, he2,
      by rw [abs_sub_comm]; exact hcl, h1, h2, hs, ?_, ?_⟩
    · intro j k l hj hk hl hb
      obtain ⟨k', l', hk', hl'⟩ := hdy j k l hk hl
      exact hex j k' l' hj hk' hl' (by rw [hmin]; exact hb)
    · have he2' := abs_le.mp he2
      have hD1 : (-33000 : ℚ) ≤ D := by norm_num at hcl' he2' ⊢; linarith [hcl'.1, hcl'.2]
      have hD2 : (D : ℚ) ≤ 1000000100 := by norm_num at hcl' he2' ⊢; linarith [hcl'.1, hcl'.2]
      have hD1' : -33000 ≤ D := by exact_mod_cast hD1
      have hD2' : D ≤ 1000000100 := by exact_mod_cast hD2
      unfold GregorianDate.fromJulian
      simp only [hnorej.1, hnorej.2, Bool.or_self, Bool.false_eq_true, if_false, hord]
      rw [i1.castSat_int _ _ (by omega) (by omega), I32.add_ok (by omega) (by omega), ok_bind]
      cases GregorianDate.ofDay p (D + 1) <;> rfl
  have hle := hy.le hx
  by_cases hba : b ≤ a
  · apply main x y a b hx hy rfl (min_eq_right hba).symm
    · unfold GregorianDate.order
      rw [hle]
      simp [hba]
    · intro j k l hk hl; exact ⟨k, l, hk, hl⟩
  · push Not at hba
    apply main y x b a hy hx (add_comm _ _) (min_eq_left hba.le).symm
    · unfold GregorianDate.order
      rw [hle]
      simp [not_le.mpr hba]
    · intro j k l hk hl; exact ⟨l, k, hl, hk⟩

/-- What `from_julian` computes in exact arithmetic. -/
theorem fromJulian_real (p : Profile) (a b : ℝ) (h1 : -32000 ≤ a + b) (h2 : a + b ≤ 1000000000) :
    GregorianDate.fromJulian p a b =
      (GregorianDate.ofDay p (⌊a + b - 1 / 2⌋ + 1)).map
        (fun d => Except.ok (d, Int.fract (a + b - 1 / 2))) := by
  have e1 : (GregorianDate.DJ_MIN : ℝ) = -32000 := by
    unfold GregorianDate.DJ_MIN; simp; norm_num
  have e2 : (GregorianDate.DJ_MAX : ℝ) = 1000000000 := by
    unfold GregorianDate.DJ_MAX; simp; norm_num
  have g1 : ((a +. b) <. (GregorianDate.DJ_MIN : ℝ)) = false := by
    rw [e1]; simp; linarith
  have g2 : ((GregorianDate.DJ_MAX : ℝ) <. (a +. b)) = false := by
    rw [e2]; simp; linarith
  have hs : ∀ c1 c2 : ℝ, c1 + c2 = a + b → GregorianDate.order a b = (c1, c2) →
      GregorianDate.fromJulian p a b =
      (GregorianDate.ofDay p (⌊a + b - 1 / 2⌋ + 1)).map
        (fun d => Except.ok (d, Int.fract (a + b - 1 / 2))) := by
    intro c1 c2 hc ho
    obtain ⟨s1, s2⟩ := split_real c1 c2
    rw [hc] at s1 s2
    have f1 : (-32001 : ℤ) ≤ ⌊a + b - 1 / 2⌋ := by
      rw [Int.le_floor]; push_cast; linarith
    have f2 : ⌊a + b - 1 / 2⌋ ≤ 1000000000 := by
      have : ⌊a + b - 1 / 2⌋ < 1000000001 := by rw [Int.floor_lt]; push_cast; linarith
      omega
    unfold GregorianDate.fromJulian
    simp only [g1, g2, Bool.or_self, Bool.false_eq_true, if_false, ho, s1, s2]
    rw [castSat_floor _ _ _ (by omega) (by omega), I32.add_ok (by omega) (by omega), ok_bind]
    cases GregorianDate.ofDay p (⌊a + b - 1 / 2⌋ + 1) <;> rfl
  by_cases hba : b ≤ a
  · apply hs a b rfl
    unfold GregorianDate.order
    have : (b <=. a) = true := by simpa using hba
    rw [this]; rfl
  · apply hs b a (add_comm _ _)
    unfold GregorianDate.order
    have : (b <=. a) = false := by simpa using hba
    rw [this]; rfl

end Verif
