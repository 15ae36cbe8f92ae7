import Verif.Float.Is
import Verif.Model.Calendar

/-!
# `from_julian`, floating-point part, in binary64
-/

namespace Verif
open F64

theorem truncQ_spec (x : ℚ) : |x - truncQ x| < 1 ∧ (0 ≤ x → 0 ≤ x - truncQ x) ∧
    (x ≤ 0 → x - truncQ x ≤ 0) := by
  unfold truncQ
  split
  · rename_i h
    have h1 := Int.floor_le (-x)
    have h2 := Int.lt_floor_add_one (-x)
    push_cast
    refine ⟨by rw [abs_lt]; constructor <;> linarith, fun h => by linarith, fun _ => by linarith⟩
  · rename_i h
    have h1 := Int.floor_le x
    have h2 := Int.lt_floor_add_one x
    refine ⟨by rw [abs_lt]; constructor <;> linarith, fun h => by linarith, fun hx => ?_⟩
    have : x = 0 := by linarith
    subst this
    simp

theorem int_rep_lt (z : ℤ) (h : |z| ≤ 2 ^ 53) : RepQ (z : ℚ) ∧ |(z : ℚ)| < OVQ := by
  refine ⟨RepQ.int z h, small_lt_OVQ ?_⟩
  have h' : |(z : ℚ)| ≤ 2 ^ 53 := by exact_mod_cast h
  exact h'.trans (by norm_num)

/-- Fractional part of a binary64 number by `% 1.0`, and the exactness of subtracting it. -/
theorem fract_f64 {x one : F64} {a : ℚ} (hx : Is x a) (h1 : Is one 1) :
    Is (x %. one) (a - truncQ a) ∧ Is (Arith.round (x -. (x %. one))) (truncQ a) := by
  have e1 : Is (x %. one) (a - truncQ a) := by
    have := hx.rem h1 one_ne_zero
    simpa using this
  refine ⟨e1, ?_⟩
  have e : a - (a - truncQ a) = (truncQ a : ℚ) := by ring
  have e2 : Is (x -. (x %. one)) (a - (a - truncQ a)) :=
    hx.sub_exact e1 (by rw [e]; exact hx.trunc.rep) (by rw [e]; exact hx.trunc.lt_OVQ)
  rw [e] at e2
  have := e2.round
  rwa [roundQ_int] at this

theorem split_f64 {d1 d2 : F64} {a b : ℚ} (h1 : Is d1 a) (h2 : Is d2 b) (hs : |a + b| ≤ 2 ^ 40) :
    ∃ (D : ℤ) (f e : ℚ), Is (GregorianDate.split d1 d2).1 D ∧ Is (GregorianDate.split d1 d2).2 f ∧
      0 ≤ f ∧ f ≤ 1 ∧ (D : ℚ) + f = a + b - 1 / 2 + e ∧
      |e| ≤ (|b| + 3) / 2 ^ 53 ∧ |e| ≤ 1 / 2 + 1 / 2 ^ 52 ∧
      (∀ (j : ℕ) (k l : ℤ), j + 1 ≤ 52 → a = k / 2 ^ (j + 1) → b = l / 2 ^ (j + 1) →
        |b - 1 / 2| * 2 ^ (j + 1) ≤ 2 ^ 53 → e = 0 ∧ f < 1) := by
  have hone : Is (Arith.lit 1 : F64) 1 := by simpa using Is.lit_nat 1 (by norm_num)
  have hzero : Is (Arith.lit 0 : F64) 0 := by simpa using Is.lit_nat 0 (by norm_num)
  have hhalf : Is (Arith.lit 0.5 : F64) (1 / 2) := by
    have h : (0.5 : ℚ) = ((1 : ℤ) : ℚ) / 2 ^ 1 := by norm_num
    have := Is.lit_exact (0.5 : ℚ) (by rw [h]; exact RepQ.dyadic 1 1 (by norm_num) (by norm_num))
      (small_le_HUGE (by norm_num [abs_of_pos]))
    exact this.congr (by norm_num)
  -- d2 - 0.5
  have hdel : |RN (b - 1 / 2) - (b - 1 / 2)| ≤ 1 / 2 := by
    refine (RN_nearest (b - 1 / 2) h2.rep).trans ?_
    have : b - (b - 1 / 2) = 1 / 2 := by ring
    rw [this]; norm_num [abs_of_pos]
  have hdel2 : |RN (b - 1 / 2) - (b - 1 / 2)| ≤ |b - 1 / 2| / 2 ^ 53 + 1 / 2 ^ 100 := RN_err' _
  -- no overflow in d2 - 0.5
  have hov : |RN (b - 1 / 2)| < OVQ := by
    rcases le_total |b| (2 ^ 100) with h | h
    · apply RN_lt_OVQ
      apply small_le_HUGE
      refine (abs_sub _ _).trans ?_
      have : |(1 / 2 : ℚ)| = 1 / 2 := abs_of_pos (by norm_num)
      rw [this]
      have e : (2 : ℚ) ^ 100 + 1 / 2 ≤ 2 ^ 200 := by norm_num
      linarith
    · -- b is an even integer multiple far above 1/2, so it rounds back to b
      have hb : RN (b - 1 / 2) = b := by
        obtain ⟨m, hm⟩ := h2.rep.dvd 0 (by norm_num) (by
          refine le_trans ?_ h; norm_num)
        obtain ⟨m', hm'⟩ := (RN_rep (b - 1 / 2)).dvd 0 (by norm_num) (by
          have : |b| ≤ |RN (b - 1 / 2)| + |RN (b - 1 / 2) - b| := by
            have : b = RN (b - 1 / 2) - (RN (b - 1 / 2) - b) := by ring
            conv_lhs => rw [this]
            exact abs_sub _ _
          have h3 : |RN (b - 1 / 2) - b| ≤ 1 := by
            have : RN (b - 1 / 2) - b = (RN (b - 1 / 2) - (b - 1 / 2)) + (-1 / 2) := by ring
            rw [this]
            refine (abs_add_le _ _).trans ?_
            have : |(-1 / 2 : ℚ)| = 1 / 2 := by norm_num [abs_div]
            rw [this]
            linarith
          have e : (2 : ℚ) ^ 53 * 2 ^ (0 : ℤ) ≤ 2 ^ 100 - 1 := by norm_num
          linarith)
        rw [hm'] at hdel ⊢
        rw [hm] at hdel ⊢
        rw [abs_le] at hdel
        simp only [zero_add, zpow_one] at hdel ⊢
        have g1 : ((m' - m : ℤ) : ℚ) * 2 ≤ 0 := by push_cast; linarith
        have g2 : (-1 : ℚ) ≤ ((m' - m : ℤ) : ℚ) * 2 := by push_cast; linarith
        have g1' : (m' - m) * 2 ≤ 0 := by exact_mod_cast g1
        have g2' : -1 ≤ (m' - m) * 2 := by exact_mod_cast g2
        have : m' = m := by omega
        rw [this]
      rw [hb]
      exact h2.lt_OVQ
  have hd2 : Is (d2 -. Arith.lit 0.5) (RN (b - 1 / 2)) := h2.sub' hhalf hov
  obtain ⟨hf1, hr1⟩ := fract_f64 h1 hone
  obtain ⟨hf2, hr2⟩ := fract_f64 hd2 hone
  set e2 := RN (b - 1 / 2) with he2
  obtain ⟨a1, _, _⟩ := truncQ_spec a
  obtain ⟨b1, _, _⟩ := truncQ_spec e2
  set f1 := a - truncQ a with hf1d
  set f2 := e2 - truncQ e2 with hf2d
  have hsb : |f1 + f2| ≤ 2 := (abs_add_le _ _).trans (by linarith)
  have hS : Is ((d1 %. Arith.lit 1) +. ((d2 -. Arith.lit 0.5) %. Arith.lit 1)) (RN (f1 + f2)) :=
    hf1.add hf2 (small_le_HUGE (hsb.trans (by norm_num)))
  have heps : |RN (f1 + f2) - (f1 + f2)| ≤ 1 / 2 ^ 53 := by
    have := RN_err_grid (f1 + f2) (-52) (by norm_num) (by
      refine hsb.trans ?_; norm_num)
    refine this.trans ?_
    norm_num
  have hs2 : |RN (f1 + f2)| ≤ 2 := by
    rw [abs_le] at hsb ⊢
    have h2 : RepQ (2 : ℚ) := by simpa using RepQ.int 2 (by norm_num)
    exact ⟨le_RN_of_le h2.neg hsb.1, RN_le_of_le h2 hsb.2⟩
  set s := RN (f1 + f2) with hsd
  obtain ⟨c1, c2, c3⟩ := truncQ_spec s
  have hf0 : Is (((d1 %. Arith.lit 1) +. ((d2 -. Arith.lit 0.5) %. Arith.lit 1)) %. Arith.lit 1)
      (s - truncQ s) := (fract_f64 hS hone).1
  set f0 := s - truncQ s with hf0d
  have hts : |truncQ s| ≤ 2 := by
    have : |(truncQ s : ℚ)| < 3 := by
      have : (truncQ s : ℚ) = s - f0 := by rw [hf0d]; ring
      rw [this]
      exact lt_of_le_of_lt (abs_sub _ _) (by linarith)
    have h3 : |truncQ s| < 3 := by exact_mod_cast this
    omega
  -- integer parts
  have htt : |truncQ a + truncQ e2| ≤ 2 ^ 41 := by
    have h3 : ((truncQ a + truncQ e2 : ℤ) : ℚ) = (a + b) + (e2 - (b - 1 / 2)) + (-1 / 2) - f1 - f2 := by
      push_cast; rw [hf1d, hf2d]; ring
    have h4 : |((truncQ a + truncQ e2 : ℤ) : ℚ)| ≤ 2 ^ 40 + 4 := by
      rw [h3]
      rw [abs_lt] at a1 b1
      rw [abs_le] at hs hdel ⊢
      constructor <;> linarith
    have h5 : |((truncQ a + truncQ e2 : ℤ) : ℚ)| ≤ 2 ^ 41 := h4.trans (by norm_num)
    exact_mod_cast h5
  have htsum : Is (Arith.round (d1 -. (d1 %. Arith.lit 1)) +.
      Arith.round ((d2 -. Arith.lit 0.5) -. ((d2 -. Arith.lit 0.5) %. Arith.lit 1)))
      ((truncQ a + truncQ e2 : ℤ) : ℚ) := by
    obtain ⟨g1, g2⟩ := int_rep_lt (truncQ a + truncQ e2) (htt.trans (by norm_num))
    have := hr1.add_exact hr2 (by push_cast at g1; exact g1) (by push_cast at g2; exact g2)
    exact this.congr (by push_cast; ring)
  have hcmp := hf0.lt hzero
  have hgen : ∀ (k : ℤ) (w : F64), |k| ≤ 8 → Is w k →
      Is ((Arith.round (d1 -. (d1 %. Arith.lit 1)) +.
      Arith.round ((d2 -. Arith.lit 0.5) -. ((d2 -. Arith.lit 0.5) %. Arith.lit 1))) +. w)
      ((truncQ a + truncQ e2 + k : ℤ) : ℚ) := by
    intro k w hk hw
    obtain ⟨g1, g2⟩ := int_rep_lt (truncQ a + truncQ e2 + k) (by
      refine (abs_add_le _ _).trans ?_
      have : (2 : ℤ) ^ 41 + 8 ≤ 2 ^ 53 := by norm_num
      linarith)
    have e : ((truncQ a + truncQ e2 : ℤ) : ℚ) + (k : ℚ) = ((truncQ a + truncQ e2 + k : ℤ) : ℚ) := by
      push_cast; ring
    have := htsum.add_exact hw (by rw [e]; exact g1) (by rw [e]; exact g2)
    exact this.congr e
  -- final error estimate
  have hfinal : ∀ η : ℚ, |η| ≤ 1 / 2 ^ 54 →
      |(e2 - (b - 1 / 2)) + (s - (f1 + f2)) + η| ≤ (|b| + 3) / 2 ^ 53 ∧
      |(e2 - (b - 1 / 2)) + (s - (f1 + f2)) + η| ≤ 1 / 2 + 1 / 2 ^ 52 := by
    intro η hη
    have t1 : |(e2 - (b - 1 / 2)) + (s - (f1 + f2)) + η| ≤
        |e2 - (b - 1 / 2)| + |s - (f1 + f2)| + |η| :=
      (abs_add_le _ _).trans (add_le_add (abs_add_le _ _) (le_refl _))
    have t2 : |b - 1 / 2| ≤ |b| + 1 / 2 := by
      refine (abs_sub _ _).trans ?_
      norm_num [abs_of_pos]
    constructor
    · have : |b - 1 / 2| / 2 ^ 53 ≤ (|b| + 1 / 2) / 2 ^ 53 := by
        exact div_le_div_of_nonneg_right t2 (by norm_num)
      have e : (|b| + 1 / 2) / 2 ^ 53 + 1 / 2 ^ 100 + 1 / 2 ^ 53 + 1 / 2 ^ 54 ≤ (|b| + 3) / 2 ^ 53 := by
        have : (|b| + 3) / 2 ^ 53 = (|b| + 1 / 2) / 2 ^ 53 + (5 / 2) / 2 ^ 53 := by ring
        rw [this]
        have : (1 : ℚ) / 2 ^ 100 + 1 / 2 ^ 53 + 1 / 2 ^ 54 ≤ (5 / 2) / 2 ^ 53 := by norm_num
        linarith
      linarith
    · have e : (1 : ℚ) / 2 + 1 / 2 ^ 53 + 1 / 2 ^ 54 ≤ 1 / 2 + 1 / 2 ^ 52 := by norm_num
      linarith
  have hexact : ∀ (j : ℕ) (k l : ℤ), j + 1 ≤ 52 → a = k / 2 ^ (j + 1) → b = l / 2 ^ (j + 1) →
        |b - 1 / 2| * 2 ^ (j + 1) ≤ 2 ^ 53 →
      e2 = b - 1 / 2 ∧ s = f1 + f2 ∧ (f0 < 0 → RN (f0 + 1) = f0 + 1) := by
    intro j k l hj hk hl hb
    have hpj : (0 : ℚ) < 2 ^ (j + 1) := by positivity
    have hj53 : (2 : ℚ) ^ (j + 1) * 2 ≤ 2 ^ 53 := by
      have : (2 : ℚ) ^ (j + 1) ≤ 2 ^ 52 := pow_le_pow_right₀ (by norm_num) hj
      have e : (2 : ℚ) ^ 52 * 2 = 2 ^ 53 := by norm_num
      linarith
    have hrep : ∀ m : ℤ, |(m : ℚ) / 2 ^ (j + 1)| ≤ 2 → RepQ ((m : ℚ) / 2 ^ (j + 1)) := by
      intro m hm
      apply RepQ.dyadic m (j + 1) _ (by omega)
      rw [abs_div, abs_of_pos hpj, div_le_iff₀ hpj] at hm
      have : |(m : ℚ)| ≤ 2 ^ 53 := by linarith
      exact_mod_cast this
    have hbe : b - 1 / 2 = ((l - 2 ^ j : ℤ) : ℚ) / 2 ^ (j + 1) := by
      rw [hl]; push_cast; rw [pow_succ]; field_simp
    have hbr : RepQ (b - 1 / 2) := by
      rw [hbe]
      apply RepQ.dyadic _ (j + 1) _ (by omega)
      rw [hbe, abs_div, abs_of_pos hpj] at hb
      have h3 : |((l - 2 ^ j : ℤ) : ℚ)| ≤ 2 ^ 53 := by
        have : |((l - 2 ^ j : ℤ) : ℚ)| / 2 ^ (j + 1) * 2 ^ (j + 1) = |((l - 2 ^ j : ℤ) : ℚ)| := by
          field_simp
        linarith
      exact_mod_cast h3
    have he : e2 = b - 1 / 2 := by rw [he2, RN_exact hbr]
    have hfe : f1 + f2 = ((k + (l - 2 ^ j) - (truncQ a + truncQ e2) * 2 ^ (j + 1) : ℤ) : ℚ) /
        2 ^ (j + 1) := by
      rw [hf1d, hf2d]
      have h4 : e2 = ((l - 2 ^ j : ℤ) : ℚ) / 2 ^ (j + 1) := by rw [he, hbe]
      push_cast at h4 ⊢
      rw [eq_div_iff hpj.ne'] at h4 hk ⊢
      linear_combination hk + h4
    have hse : s = f1 + f2 := by
      rw [hsd]; apply RN_exact; rw [hfe]; apply hrep; rw [← hfe]; exact hsb
    refine ⟨he, hse, fun hneg => RN_exact ?_⟩
    have hg : f0 + 1 = (((k + (l - 2 ^ j) - (truncQ a + truncQ e2) * 2 ^ (j + 1)) +
        (1 - truncQ s) * 2 ^ (j + 1) : ℤ) : ℚ) / 2 ^ (j + 1) := by
      have h5 : f0 + 1 = (f1 + f2) + (1 - truncQ s) := by rw [hf0d, hse]; ring
      rw [h5, hfe]
      push_cast
      field_simp
    rw [hg]
    apply hrep
    rw [← hg]
    rw [abs_lt] at c1
    rw [abs_le]
    constructor <;> linarith
  rcases lt_or_ge f0 0 with hneg | hpos
  · -- f < 0: add one
    have hb : (((d1 %. Arith.lit 1) +. ((d2 -. Arith.lit 0.5) %. Arith.lit 1)) %. Arith.lit 1
        <. (Arith.lit 0 : F64)) = true := by rw [hcmp]; simpa using hneg
    have hf01 : 0 ≤ f0 + 1 ∧ f0 + 1 ≤ 1 := by
      rw [abs_lt] at c1; constructor <;> linarith
    have hf : Is ((((d1 %. Arith.lit 1) +. ((d2 -. Arith.lit 0.5) %. Arith.lit 1)) %. Arith.lit 1)
        +. (Arith.lit 1 : F64)) (RN (f0 + 1)) :=
      hf0.add hone (small_le_HUGE (by
        rw [abs_of_nonneg hf01.1]; exact hf01.2.trans (by norm_num)))
    have heta : |RN (f0 + 1) - (f0 + 1)| ≤ 1 / 2 ^ 54 := by
      have := RN_err_grid (f0 + 1) (-53) (by norm_num) (by
        rw [abs_of_nonneg hf01.1]; refine hf01.2.trans ?_; norm_num)
      refine this.trans ?_
      norm_num
    have hF0 : 0 ≤ RN (f0 + 1) := RN_nonneg hf01.1
    have hF1 : RN (f0 + 1) ≤ 1 := RN_le_of_le (by simpa using RepQ.int 1 (by norm_num)) hf01.2
    -- third rounding
    have hk3 : Is (Arith.round (((d1 %. Arith.lit 1) +. ((d2 -. Arith.lit 0.5) %. Arith.lit 1)) -.
        ((((d1 %. Arith.lit 1) +. ((d2 -. Arith.lit 0.5) %. Arith.lit 1)) %. Arith.lit 1)
        +. (Arith.lit 1 : F64)))) ((truncQ s - 1 : ℤ) : ℚ) := by
      have hd3 := hS.sub hf (small_le_HUGE (by
        refine (abs_sub _ _).trans ?_
        rw [abs_of_nonneg hF0]
        have : (2 : ℚ) + 1 ≤ 2 ^ 200 := by norm_num
        linarith))
      have hr := hd3.round
      have hx : s - RN (f0 + 1) = ((truncQ s - 1 : ℤ) : ℚ) - (RN (f0 + 1) - (f0 + 1)) := by
        push_cast; rw [hf0d]; ring
      have hnear : |RN (s - RN (f0 + 1)) - ((truncQ s - 1 : ℤ) : ℚ)| < 1 / 2 := by
        have g1 := RN_nearest (s - RN (f0 + 1)) (RepQ.int (truncQ s - 1) (by
          refine (abs_sub _ _).trans ?_
          have : |(1 : ℤ)| = 1 := rfl
          rw [this]
          have : (2 : ℤ) + 1 ≤ 2 ^ 53 := by norm_num
          linarith))
        have g2 : ((truncQ s - 1 : ℤ) : ℚ) - (s - RN (f0 + 1)) = RN (f0 + 1) - (f0 + 1) := by
          rw [hx]; ring
        rw [g2] at g1
        have g3 : RN (s - RN (f0 + 1)) - ((truncQ s - 1 : ℤ) : ℚ) =
            (RN (s - RN (f0 + 1)) - (s - RN (f0 + 1))) - (RN (f0 + 1) - (f0 + 1)) := by
          rw [← g2]; ring
        rw [g3]
        refine (abs_sub _ _).trans_lt ?_
        have : (1 : ℚ) / 2 ^ 54 + 1 / 2 ^ 54 < 1 / 2 := by norm_num
        linarith
      rw [roundQ_near hnear] at hr
      exact hr
    refine ⟨truncQ a + truncQ e2 + (truncQ s - 1), RN (f0 + 1),
      (e2 - (b - 1 / 2)) + (s - (f1 + f2)) + (RN (f0 + 1) - (f0 + 1)), ?_, ?_, hF0, hF1, ?_,
      (hfinal _ heta).1, (hfinal _ heta).2, ?_⟩
    · simp only [GregorianDate.split, hb, if_true]
      exact hgen (truncQ s - 1) _ (by
        refine (abs_sub _ _).trans ?_
        have : |(1 : ℤ)| = 1 := rfl
        rw [this]; linarith) hk3
    · simp only [GregorianDate.split, hb, if_true]
      exact hf
    · push_cast
      rw [hf0d, hf1d, hf2d]
      ring
    · intro j k l hj hk hl hb
      obtain ⟨g1, g2, g3⟩ := hexact j k l hj hk hl hb
      rw [g3 hneg]
      exact ⟨by rw [g1, g2]; ring, by linarith⟩
  · have hb : (((d1 %. Arith.lit 1) +. ((d2 -. Arith.lit 0.5) %. Arith.lit 1)) %. Arith.lit 1
        <. (Arith.lit 0 : F64)) = false := by rw [hcmp]; simpa using hpos
    have hk3 : Is (Arith.round (((d1 %. Arith.lit 1) +. ((d2 -. Arith.lit 0.5) %. Arith.lit 1)) -.
        (((d1 %. Arith.lit 1) +. ((d2 -. Arith.lit 0.5) %. Arith.lit 1)) %. Arith.lit 1)))
        (truncQ s) := (fract_f64 hS hone).2
    rw [abs_lt] at c1
    refine ⟨truncQ a + truncQ e2 + truncQ s, f0,
      (e2 - (b - 1 / 2)) + (s - (f1 + f2)) + 0, ?_, ?_, hpos, c1.2.le, ?_,
      (hfinal 0 (by norm_num)).1, (hfinal 0 (by norm_num)).2, ?_⟩
    · simp only [GregorianDate.split, hb, Bool.false_eq_true, if_false]
      exact hgen (truncQ s) _ (by linarith) hk3
    · simp only [GregorianDate.split, hb, Bool.false_eq_true, if_false]
      exact hf0
    · push_cast
      rw [hf0d, hf1d, hf2d]
      ring
    · intro j k l hj hk hl hb
      obtain ⟨g1, g2, _⟩ := hexact j k l hj hk hl hb
      exact ⟨by rw [g1, g2]; ring, c1.2⟩

end Verif
