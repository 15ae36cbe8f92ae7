import Verif.Float.Round
import Mathlib.Data.Nat.Sqrt

/-!
# A model of IEEE-754 binary64 (`f64`)

`F64` has NaN (payload and sign not modelled), signed infinities, and finite numbers
`(-1)^s · n · 2^-1074` (signed zeros included) with `n` of at most 53 significant bits and below
`2^2098` (i.e. the value is below `2^1024`).  Every such triple is exactly one binary64 datum.

The operations are those of Rust's `f64`: `+ - * /` and `sqrt` correctly rounded to nearest, ties to
even; `%` is the exact C `fmod`; `round` rounds half away from zero; `as i32`/`as u32` truncate and
saturate with NaN going to 0; comparisons with NaN are false.
-/

namespace Verif

/-- Overflow threshold `2^1024`, in units of `2^-1074`. -/
def OVN : ℕ := Nat.pow 2 2098

set_option exponentiation.threshold 3000 in
theorem OVN_eq_pow (k : ℕ) (h : k = 2098) : OVN = 2 ^ k := by subst h; rfl

attribute [irreducible] OVN

/-- IEEE-754 binary64 data. -/
inductive F64 where
  | nan
  | inf (s : Bool)
  | fin (s : Bool) (n : ℕ) (h : RepNat n ∧ n < OVN)

namespace F64

instance : DecidableEq F64
  | nan, nan => isTrue rfl
  | nan, inf _ => isFalse (by simp)
  | nan, fin _ _ _ => isFalse (by simp)
  | inf _, nan => isFalse (by simp)
  | inf s, inf t => if h : s = t then isTrue (by rw [h]) else isFalse (by simpa using h)
  | inf _, fin _ _ _ => isFalse (by simp)
  | fin _ _ _, nan => isFalse (by simp)
  | fin _ _ _, inf _ => isFalse (by simp)
  | fin s n _, fin t m _ =>
    if h : s = t ∧ n = m then isTrue (by obtain ⟨h1, h2⟩ := h; subst h1; subst h2; rfl)
    else isFalse (by simpa using h)

/-- Finite number, or infinity on overflow. -/
def mkFin (s : Bool) (n : ℕ) (h : RepNat n) : F64 :=
  if h2 : n < OVN then fin s n ⟨h, h2⟩ else inf s

/-- `±p/q` units of `2^-1074`, rounded to nearest even. -/
def ofQuot (s : Bool) (p q : ℕ) : F64 := mkFin s (rndMag p q) (rndMag_rep p q)

/-- Signed zero. -/
def zero (s : Bool) : F64 := ofQuot s 0 1

/-- Rounding of a rational: the value of a decimal literal. -/
def ofRat (q : ℚ) : F64 := ofQuot (decide (q < 0)) (q.num.natAbs * UN) q.den

/-- Integer to `f64` conversion (`as f64`). -/
def ofInt (z : ℤ) : F64 := ofRat z

/-- Signed number of units. -/
def sval (s : Bool) (n : ℕ) : ℤ := if s then -(n : ℤ) else n

/-- Negation flips the sign bit. -/
def neg : F64 → F64
  | nan => nan
  | inf s => inf (!s)
  | fin s n h => fin (!s) n h

/-- Absolute value clears the sign bit. -/
def abs : F64 → F64
  | nan => nan
  | inf _ => inf false
  | fin _ n h => fin false n h

/-- Addition. -/
def add : F64 → F64 → F64
  | nan, _ => nan
  | _, nan => nan
  | inf s, inf t => if s = t then inf s else nan
  | inf s, fin _ _ _ => inf s
  | fin _ _ _, inf t => inf t
  | fin s a _, fin t b _ =>
    if sval s a + sval t b = 0 then zero (s && t)
    else ofQuot (decide (sval s a + sval t b < 0)) (sval s a + sval t b).natAbs 1

/-- Subtraction. -/
def sub (x y : F64) : F64 := add x (neg y)

/-- Multiplication. -/
def mul : F64 → F64 → F64
  | nan, _ => nan
  | _, nan => nan
  | inf s, inf t => inf (s ^^ t)
  | inf s, fin t b _ => if b = 0 then nan else inf (s ^^ t)
  | fin s a _, inf t => if a = 0 then nan else inf (s ^^ t)
  | fin s a _, fin t b _ => ofQuot (s ^^ t) (a * b) UN

/-- Division. -/
def div : F64 → F64 → F64
  | nan, _ => nan
  | _, nan => nan
  | inf _, inf _ => nan
  | inf s, fin t _ _ => inf (s ^^ t)
  | fin s _ _, inf t => zero (s ^^ t)
  | fin s a _, fin t b _ =>
    if b = 0 then (if a = 0 then nan else inf (s ^^ t)) else ofQuot (s ^^ t) (a * UN) b

/-- Rust `%` on `f64` (C `fmod`): exact, sign of the dividend. -/
def rem : F64 → F64 → F64
  | nan, _ => nan
  | _, nan => nan
  | inf _, _ => nan
  | fin s a h, inf _ => fin s a h
  | fin s a _, fin _ b _ => if b = 0 then nan else ofQuot s (a % b) 1

/-- Square root of `n` units, rounded to nearest even, in units. -/
def sqrtMag (n : ℕ) : ℕ :=
  let K := n * UN
  let e := ulpExp (Nat.sqrt K)
  let f := Nat.sqrt (K / 4 ^ e)
  (if 4 * K < (2 * f + 1) ^ 2 * 4 ^ e then f
   else if (2 * f + 1) ^ 2 * 4 ^ e < 4 * K then f + 1
   else f + f % 2) * 2 ^ e

/-- `f64::sqrt`. -/
def sqrt : F64 → F64
  | nan => nan
  | inf s => if s then nan else inf false
  | fin s n _ => if n = 0 then zero s else if s then nan else ofQuot false (sqrtMag n) 1

/-- `f64::trunc`. -/
def trunc : F64 → F64
  | nan => nan
  | inf s => inf s
  | fin s n _ => ofQuot s (n / UN * UN) 1

/-- `f64::round`: nearest integer, halves away from zero. -/
def round : F64 → F64
  | nan => nan
  | inf s => inf s
  | fin s n _ => ofQuot s ((2 * n + UN) / (2 * UN) * UN) 1

/-- `f64::floor`. -/
def floor : F64 → F64
  | nan => nan
  | inf s => inf s
  | fin s n _ => if s then ofQuot s ((n + (UN - 1)) / UN * UN) 1 else ofQuot s (n / UN * UN) 1

/-- `<` on `f64`. -/
def lt : F64 → F64 → Bool
  | nan, _ => false
  | _, nan => false
  | inf s, inf t => s && !t
  | inf s, fin _ _ _ => s
  | fin _ _ _, inf t => !t
  | fin s a _, fin t b _ => decide (sval s a < sval t b)

/-- `<=` on `f64`. -/
def le : F64 → F64 → Bool
  | nan, _ => false
  | _, nan => false
  | inf s, inf t => s || !t
  | inf s, fin _ _ _ => s
  | fin _ _ _, inf t => !t
  | fin s a _, fin t b _ => decide (sval s a ≤ sval t b)

/-- Saturating float-to-integer cast (`as`): truncates, clamps to `[lo,hi]`, NaN gives 0. -/
def castSat (lo hi : ℤ) : F64 → ℤ
  | nan => 0
  | inf s => if s then lo else hi
  | fin s n _ => max lo (min hi (sval s (n / UN)))

/-- `std::f64::consts::PI` = 0x400921FB54442D18. -/
def pi : F64 := ofQuot false (0x1921FB54442D18 * 2 ^ (1074 - 51)) 1

/-! ### Values of finite numbers -/

/-- Is the datum a finite number? -/
def isFin : F64 → Bool
  | fin _ _ _ => true
  | _ => false

/-- Rational value of a finite number (0 otherwise). -/
def v : F64 → ℚ
  | fin s n _ => (sval s n : ℚ) / U
  | _ => 0

/-- A bound well inside the overflow threshold: `2^1023`. -/
def HUGE : ℚ := (OVN : ℚ) / 2 / U

theorem OVN_eq : (OVN : ℚ) = 2 ^ 1024 * U := by
  obtain ⟨k, hk⟩ : ∃ k : ℕ, k = 1074 := ⟨_, rfl⟩
  obtain ⟨j, hj⟩ : ∃ j : ℕ, j = 1024 := ⟨_, rfl⟩
  have : OVN = 2 ^ j * UN := by
    rw [UN_eq_pow k hk, OVN_eq_pow (j + k) (by omega), pow_add]
  have h2 : (OVN : ℚ) = 2 ^ j * U := by rw [this]; unfold U; push_cast; ring
  rw [h2, hj]

theorem HUGE_eq : HUGE = 2 ^ 1023 := by
  unfold HUGE
  rw [OVN_eq]
  obtain ⟨j, hj⟩ : ∃ j : ℕ, j = 1023 := ⟨_, rfl⟩
  have h1 : (2 : ℚ) ^ 1024 = 2 ^ j * 2 := by rw [← pow_succ, hj]
  have h2 : (2 : ℚ) ^ 1023 = 2 ^ j := by rw [hj]
  rw [h1, h2]
  have := U_pos
  field_simp

theorem le_HUGE {x : ℚ} {k : ℕ} (h : x ≤ 2 ^ k) (hk : k ≤ 1023) : x ≤ HUGE := by
  rw [HUGE_eq]
  exact h.trans (pow_le_pow_right₀ (by norm_num) hk)

theorem HUGE_rep : RepQ HUGE := by
  obtain ⟨j, hj⟩ : ∃ j : ℕ, j = 1023 := ⟨_, rfl⟩
  have : HUGE = ((1 : ℤ) : ℚ) * (2 : ℚ) ^ (j : ℤ) := by
    rw [HUGE_eq, ← hj]; simp
  exact RepQ.of_zpow 1 j (by norm_num) (by omega) this

theorem HUGE_pos : 0 < HUGE := by
  rw [HUGE_eq]; exact pow_pos (by norm_num) _

theorem sval_cast (s : Bool) (n : ℕ) : (sval s n : ℚ) = (if s then -1 else 1) * n := by
  unfold sval; split <;> simp

theorem abs_sval (s : Bool) (n : ℕ) : |(sval s n : ℚ)| = n := by
  rw [sval_cast, abs_mul]
  cases s <;> simp

theorem v_rep (x : F64) : RepQ (v x) := by
  match x with
  | nan => exact ⟨0, by decide, by simp [v]⟩
  | inf _ => exact ⟨0, by decide, by simp [v]⟩
  | fin s n h =>
    refine ⟨n, h.1, ?_⟩
    unfold v
    have := U_pos
    rw [abs_div, abs_sval, abs_of_pos U_pos]
    field_simp

/-- The overflow threshold `2^1024`. -/
def OVQ : ℚ := (OVN : ℚ) / U

theorem HUGE_lt_OVQ : HUGE < OVQ := by
  unfold HUGE OVQ
  have hU := U_pos
  have h2 : (0 : ℚ) < OVN := by
    rw [OVN_eq]
    exact mul_pos (pow_pos (by norm_num) _) hU
  rw [div_lt_div_iff_of_pos_right hU]
  linarith

/-- Values up to `2^1023` round below the overflow threshold. -/
theorem RN_lt_OVQ {x : ℚ} (h : |x| ≤ HUGE) : |RN x| < OVQ := by
  refine lt_of_le_of_lt ?_ HUGE_lt_OVQ
  rw [abs_le] at h ⊢
  exact ⟨le_RN_of_le HUGE_rep.neg h.1, RN_le_of_le HUGE_rep h.2⟩

theorem v_lt_OVQ (x : F64) : |v x| < OVQ := by
  have hU := U_pos
  have h0 : (0 : ℚ) < OVQ := HUGE_pos.trans HUGE_lt_OVQ
  match x with
  | nan => simpa [v] using h0
  | inf _ => simpa [v] using h0
  | fin s n h =>
    simp only [v]
    rw [abs_div, abs_sval, abs_of_pos hU]
    unfold OVQ
    rw [div_lt_div_iff_of_pos_right hU]
    exact_mod_cast h.2

theorem RN_abs (x : ℚ) : RN |x| = |RN x| := by
  rcases le_total 0 x with h | h
  · rw [abs_of_nonneg h, abs_of_nonneg (RN_nonneg h)]
  · rw [abs_of_nonpos h, abs_of_nonpos (RN_nonpos h), RN_neg]

theorem ofQuot_spec (s : Bool) (p q : ℕ) (hq : 0 < q) (h : RN ((p : ℚ) / q / U) < OVQ) :
    isFin (ofQuot s p q) = true ∧
    v (ofQuot s p q) = (if s then -1 else 1) * RN ((p : ℚ) / q / U) := by
  have hr := RN_quot p q hq
  have hU := U_pos
  have hlt : rndMag p q < OVN := by
    rw [hr] at h
    unfold OVQ at h
    rw [div_lt_div_iff_of_pos_right hU] at h
    exact_mod_cast h
  unfold ofQuot mkFin
  rw [dif_pos hlt]
  refine ⟨rfl, ?_⟩
  rw [hr]
  simp only [v]
  rw [sval_cast]
  ring

theorem ofRat_spec (q : ℚ) (h : |RN q| < OVQ) : isFin (ofRat q) = true ∧ v (ofRat q) = RN q := by
  have hd : (0 : ℚ) < q.den := by exact_mod_cast q.den_pos
  have hU := U_pos
  have e : ((q.num.natAbs * UN : ℕ) : ℚ) / q.den / U = |q| := by
    rw [← natAbs_div_den q]
    push_cast
    change (q.num.natAbs : ℚ) * U / q.den / U = _
    field_simp
  have := ofQuot_spec (decide (q < 0)) (q.num.natAbs * UN) q.den q.den_pos (by rw [e, RN_abs]; exact h)
  unfold ofRat
  refine ⟨this.1, ?_⟩
  rw [this.2, e]
  rcases lt_or_ge q 0 with h0 | h0
  · simp only [h0, decide_true, if_true, abs_of_neg h0, RN_neg]; ring
  · simp [not_lt.mpr h0, abs_of_nonneg h0]

theorem ofInt_spec (z : ℤ) (h : |z| ≤ 2 ^ 53) : isFin (ofInt z) = true ∧ v (ofInt z) = z := by
  have h' : |(z : ℚ)| ≤ 2 ^ 53 := by exact_mod_cast h
  have := ofRat_spec (z : ℚ) (RN_lt_OVQ (le_HUGE h' (by norm_num)))
  refine ⟨this.1, ?_⟩
  unfold ofInt
  rw [this.2, RN_exact (RepQ.int z h)]

theorem zero_spec (s : Bool) : isFin (zero s) = true ∧ v (zero s) = 0 := by
  have := ofQuot_spec s 0 1 one_pos (by
    simpa [RN_zero] using HUGE_pos.trans HUGE_lt_OVQ)
  unfold zero
  refine ⟨this.1, ?_⟩
  rw [this.2]
  simp [RN_zero]

theorem isFin_neg (x : F64) : isFin (neg x) = isFin x := by cases x <;> rfl

theorem v_neg (x : F64) : v (neg x) = - v x := by
  cases x with
  | nan => simp [neg, v]
  | inf s => simp [neg, v]
  | fin s n h =>
    simp only [neg, v, sval_cast]
    cases s <;> simp <;> ring

theorem isFin_abs (x : F64) : isFin (abs x) = isFin x := by cases x <;> rfl

theorem v_abs (x : F64) : v (abs x) = |v x| := by
  cases x with
  | nan => simp [abs, v]
  | inf s => simp [abs, v]
  | fin s n h =>
    simp only [abs, v]
    rw [abs_div, abs_sval, abs_of_pos U_pos]
    simp [sval]

theorem ofQuot_int (z : ℤ) (h : |RN ((z : ℚ) / U)| < OVQ) :
    isFin (ofQuot (decide (z < 0)) z.natAbs 1) = true ∧
    v (ofQuot (decide (z < 0)) z.natAbs 1) = RN ((z : ℚ) / U) := by
  have hU := U_pos
  have e : ((z.natAbs : ℕ) : ℚ) / (1 : ℕ) / U = |(z : ℚ) / U| := by
    rw [Nat.cast_natAbs, abs_div, abs_of_pos hU]; simp
  have := ofQuot_spec (decide (z < 0)) z.natAbs 1 one_pos (by rw [e, RN_abs]; exact h)
  refine ⟨this.1, ?_⟩
  rw [this.2, e]
  rcases lt_or_ge z 0 with h0 | h0
  · have : (z : ℚ) / U < 0 := div_neg_of_neg_of_pos (by exact_mod_cast h0) hU
    simp only [h0, decide_true, if_true, abs_of_neg this, RN_neg]; ring
  · have : 0 ≤ (z : ℚ) / U := div_nonneg (by exact_mod_cast h0) hU.le
    simp [not_lt.mpr h0, abs_of_nonneg this]

/-- Addition is correctly rounded. -/
theorem add_spec {x y : F64} (hx : isFin x = true) (hy : isFin y = true) (h : |RN (v x + v y)| < OVQ) :
    isFin (add x y) = true ∧ v (add x y) = RN (v x + v y) := by
  match x, y, hx, hy with
  | fin s a ha, fin t b hb, _, _ =>
    have e : v (fin s a ha) + v (fin t b hb) = ((sval s a + sval t b : ℤ) : ℚ) / U := by
      simp only [v]; push_cast; ring
    rw [e] at h ⊢
    simp only [add]
    split
    · rename_i h0
      rw [h0]
      simpa [RN_zero] using zero_spec (s && t)
    · exact ofQuot_int _ h

theorem sub_spec {x y : F64} (hx : isFin x = true) (hy : isFin y = true) (h : |RN (v x - v y)| < OVQ) :
    isFin (sub x y) = true ∧ v (sub x y) = RN (v x - v y) := by
  have := add_spec (x := x) (y := neg y) hx (by rwa [isFin_neg]) (by rwa [v_neg, ← sub_eq_add_neg])
  rwa [v_neg, ← sub_eq_add_neg] at this

/-- Multiplication is correctly rounded. -/
theorem mul_spec {x y : F64} (hx : isFin x = true) (hy : isFin y = true) (h : |RN (v x * v y)| < OVQ) :
    isFin (mul x y) = true ∧ v (mul x y) = RN (v x * v y) := by
  match x, y, hx, hy with
  | fin s a ha, fin t b hb, _, _ =>
    have hU := U_pos
    have e : v (fin s a ha) * v (fin t b hb) =
        (if s ^^ t then -1 else 1) * (((a * b : ℕ) : ℚ) / UN / U) := by
      simp only [v, sval_cast]
      change _ = _ * (((a * b : ℕ) : ℚ) / U / U)
      push_cast
      cases s <;> cases t <;> simp <;> field_simp
    have e2 : |v (fin s a ha) * v (fin t b hb)| = ((a * b : ℕ) : ℚ) / UN / U := by
      rw [e, abs_mul]
      have : (0 : ℚ) ≤ ((a * b : ℕ) : ℚ) / UN / U := by positivity
      rw [abs_of_nonneg this]
      cases (s ^^ t) <;> simp
    rw [← RN_abs, e2] at h
    have := ofQuot_spec (s ^^ t) (a * b) UN UN_pos h
    refine ⟨this.1, ?_⟩
    simp only [mul]
    rw [this.2, e]
    cases (s ^^ t)
    · simp
    · simp [RN_neg]

/-- Division is correctly rounded. -/
theorem div_spec {x y : F64} (hx : isFin x = true) (hy : isFin y = true) (h0 : v y ≠ 0)
    (h : |RN (v x / v y)| < OVQ) :
    isFin (div x y) = true ∧ v (div x y) = RN (v x / v y) := by
  match x, y, hx, hy with
  | fin s a ha, fin t b hb, _, _ =>
    have hU := U_pos
    have hb0 : b ≠ 0 := by rintro rfl; apply h0; simp [v, sval]
    have hbq : (b : ℚ) ≠ 0 := by exact_mod_cast hb0
    have e : v (fin s a ha) / v (fin t b hb) =
        (if s ^^ t then -1 else 1) * (((a * UN : ℕ) : ℚ) / b / U) := by
      simp only [v, sval_cast]
      push_cast
      change _ = _ * ((a : ℚ) * U / b / U)
      cases s <;> cases t <;> simp <;> field_simp
    have e2 : |v (fin s a ha) / v (fin t b hb)| = ((a * UN : ℕ) : ℚ) / b / U := by
      rw [e, abs_mul]
      have : (0 : ℚ) ≤ ((a * UN : ℕ) : ℚ) / b / U := by positivity
      rw [abs_of_nonneg this]
      cases (s ^^ t) <;> simp
    rw [← RN_abs, e2] at h
    have := ofQuot_spec (s ^^ t) (a * UN) b (Nat.pos_of_ne_zero hb0) h
    simp only [div, if_neg hb0]
    refine ⟨this.1, ?_⟩
    rw [this.2, e]
    cases (s ^^ t)
    · simp
    · simp [RN_neg]

/-! ### Exact operations -/

theorem rep_of_dvd_lt {t e : ℕ} (h1 : 2 ^ e ∣ t) (h2 : t < 2 ^ (e + 53)) : RepNat t := by
  obtain ⟨k, rfl⟩ := h1
  rw [Nat.mul_comm]
  apply repNat_of
  rw [pow_add] at h2
  exact (Nat.lt_of_mul_lt_mul_left h2).le

theorem repNat_dvd {n : ℕ} (h : RepNat n) : 2 ^ ulpExp n ∣ n := Nat.dvd_of_mod_eq_zero h

/-- The remainder of two 53-bit magnitudes is a 53-bit magnitude. -/
theorem rep_mod {a b : ℕ} (ha : RepNat a) (hb : RepNat b) (hb0 : 0 < b) : RepNat (a % b) := by
  rcases Nat.le_total (ulpExp b) (ulpExp a) with h | h
  · apply rep_of_dvd_lt (e := ulpExp b)
    · have : 2 ^ ulpExp b ∣ a := (pow_dvd_pow 2 h).trans (repNat_dvd ha)
      exact (Nat.dvd_mod_iff (repNat_dvd hb)).mpr this
    · exact (Nat.mod_lt a hb0).trans (lt_two_pow_ulp b)
  · apply rep_of_dvd_lt (e := ulpExp a)
    · have : 2 ^ ulpExp a ∣ b := (pow_dvd_pow 2 h).trans (repNat_dvd hb)
      exact (Nat.dvd_mod_iff this).mpr (repNat_dvd ha)
    · exact (Nat.mod_le a b).trans_lt (lt_two_pow_ulp a)

theorem ofQuot_exact (s : Bool) (n : ℕ) (h : RepNat n) (h2 : n < OVN) :
    ofQuot s n 1 = fin s n ⟨h, h2⟩ := by
  have := rndMag_exact n 1 one_pos h
  rw [Nat.mul_one] at this
  unfold ofQuot mkFin
  simp only [this]
  rw [dif_pos h2]

/-- Truncation of a rational towards zero. -/
def truncQ (x : ℚ) : ℤ := if x < 0 then -⌊-x⌋ else ⌊x⌋

theorem truncQ_units (s : Bool) (n b : ℕ) (t : Bool) (hb : 0 < b) :
    truncQ ((sval s n : ℚ) / (sval t b : ℚ)) = sval (s ^^ t) (n / b) := by
  have hbq : (0 : ℚ) < b := by exact_mod_cast hb
  have e : (sval s n : ℚ) / (sval t b : ℚ) = (if s ^^ t then -1 else 1) * ((n : ℚ) / b) := by
    rw [sval_cast, sval_cast]
    cases s <;> cases t <;> simp <;> field_simp
  have hfl : ⌊(n : ℚ) / b⌋ = ((n / b : ℕ) : ℤ) := by
    rw [Rat.floor_natCast_div_natCast]; simp
  rw [e]
  have hnb : (0 : ℚ) ≤ (n : ℚ) / b := by positivity
  unfold truncQ sval
  cases (s ^^ t)
  · simp only [Bool.false_eq_true, if_false, one_mul]
    rw [if_neg (not_lt.mpr hnb), hfl]
  · simp only [if_true]
    split
    · rw [neg_one_mul, neg_neg, hfl]
    · rename_i h
      have : (n : ℚ) / b = 0 := by linarith
      have h2 : ((n / b : ℕ) : ℤ) = 0 := by rw [← hfl, this]; simp
      rw [this, h2]
      simp

/-- `%` is exact: `x % y = x - y·trunc(x/y)`. -/
theorem rem_spec {x y : F64} (hx : isFin x = true) (hy : isFin y = true) (h0 : v y ≠ 0) :
    isFin (rem x y) = true ∧ v (rem x y) = v x - v y * truncQ (v x / v y) := by
  match x, y, hx, hy with
  | fin s a ha, fin t b hb, _, _ =>
    have hU := U_pos
    have hb0 : 0 < b := by
      rcases Nat.eq_zero_or_pos b with h | h
      · subst h; exact absurd (by simp [v, sval]) h0
      · exact h
    have hr := rep_mod ha.1 hb.1 hb0
    have hlt : a % b < OVN := (Nat.mod_le a b).trans_lt ha.2
    simp only [rem, if_neg hb0.ne']
    rw [ofQuot_exact s _ hr hlt]
    refine ⟨rfl, ?_⟩
    have e : v (fin s a ha) / v (fin t b hb) = (sval s a : ℚ) / (sval t b : ℚ) := by
      simp only [v]
      have : (sval t b : ℚ) ≠ 0 := by
        intro h
        apply h0
        simp [v, h]
      field_simp
    rw [e, truncQ_units s a b t hb0]
    simp only [v, sval_cast]
    have hdm : (a : ℚ) = b * (a / b : ℕ) + (a % b : ℕ) := by
      exact_mod_cast (Nat.div_add_mod a b).symm
    have hd2 : ((a % b : ℕ) : ℚ) = a - b * (a / b : ℕ) := by linarith
    rw [hd2]
    cases s <;> cases t <;> simp <;> ring

theorem ulpExp_ge_of_ge {n e : ℕ} (h : 2 ^ (e + 53) ≤ n) : e + 1 ≤ ulpExp n := by
  by_contra hc
  push Not at hc
  have := lt_two_pow_ulp n
  have h2 : 2 ^ (ulpExp n + 53) ≤ 2 ^ (e + 53) := Nat.pow_le_pow_right (by norm_num) (by omega)
  omega

theorem UN_dvd_of_large {n : ℕ} (h : RepNat n) (h2 : 2 ^ 53 * UN ≤ n) : UN ∣ n := by
  obtain ⟨k, hk⟩ : ∃ k : ℕ, k = 1074 := ⟨_, rfl⟩
  rw [UN_eq_pow k hk] at *
  rw [← pow_add, Nat.add_comm] at h2
  have := ulpExp_ge_of_ge h2
  exact (pow_dvd_pow 2 (by omega)).trans (repNat_dvd h)

theorem rep_mul_UN {k : ℕ} (h : k ≤ 2 ^ 53) : RepNat (k * UN) := by
  obtain ⟨j, hj⟩ : ∃ j : ℕ, j = 1074 := ⟨_, rfl⟩
  rw [UN_eq_pow j hj]
  exact repNat_of _ _ h

theorem rep_trunc {n : ℕ} (h : RepNat n) : RepNat (n / UN * UN) := by
  rcases Nat.lt_or_ge n (2 ^ 53 * UN) with h1 | h1
  · exact rep_mul_UN ((Nat.div_lt_iff_lt_mul UN_pos).mpr h1).le
  · rw [Nat.div_mul_cancel (UN_dvd_of_large h h1)]
    exact h

theorem two_pow_UN_lt_OVN : (2 ^ 53) * UN < OVN := by
  obtain ⟨k, hk⟩ : ∃ k : ℕ, k = 1074 := ⟨_, rfl⟩
  rw [UN_eq_pow k hk, OVN_eq_pow (k + 1024) (by omega), ← pow_add]
  exact Nat.pow_lt_pow_right (by norm_num) (by omega)

theorem truncQ_v (s : Bool) (n : ℕ) (h) : truncQ (v (fin s n h)) = sval s (n / UN) := by
  have := truncQ_units s n UN false UN_pos
  simpa [v, U, sval] using this

/-- `trunc` is exact. -/
theorem trunc_spec {x : F64} (hx : isFin x = true) :
    isFin (trunc x) = true ∧ v (trunc x) = truncQ (v x) := by
  match x, hx with
  | fin s n h, _ =>
    have hlt : n / UN * UN < OVN := (Nat.div_mul_le_self n UN).trans_lt h.2
    simp only [trunc]
    rw [ofQuot_exact s _ (rep_trunc h.1) hlt, truncQ_v]
    refine ⟨rfl, ?_⟩
    simp only [v, sval_cast]
    push_cast
    change _ * (_ * U) / U = _
    have := U_pos
    field_simp

/-- Nearest integer to a rational, halves away from zero. -/
def roundQ (x : ℚ) : ℤ := if x < 0 then -⌊-x + 1 / 2⌋ else ⌊x + 1 / 2⌋

theorem roundQ_v (s : Bool) (n : ℕ) (h) :
    roundQ (v (fin s n h)) = sval s ((2 * n + UN) / (2 * UN)) := by
  have hU := U_pos
  have hfl : ⌊(n : ℚ) / U + 1 / 2⌋ = (((2 * n + UN) / (2 * UN) : ℕ) : ℤ) := by
    have e : (n : ℚ) / U + 1 / 2 = ((2 * n + UN : ℕ) : ℚ) / ((2 * UN : ℕ) : ℚ) := by
      push_cast
      change _ = (2 * (n : ℚ) + U) / (2 * U)
      field_simp
    rw [e, Rat.floor_natCast_div_natCast]
    simp
  have hn : (0 : ℚ) ≤ (n : ℚ) / U := by positivity
  unfold roundQ
  simp only [v, sval_cast]
  cases s
  · simp only [Bool.false_eq_true, if_false, one_mul]
    rw [if_neg (not_lt.mpr hn), hfl]
    rfl
  · simp only [if_true, sval]
    have e : (-1 : ℚ) * n / U = -((n : ℚ) / U) := by ring
    rw [e]
    split
    · rw [neg_neg, hfl]
    · rename_i h0
      have h1 : (n : ℚ) / U = 0 := by linarith
      have h2 : (n : ℚ) = 0 := by
        rcases div_eq_zero_iff.mp h1 with h | h
        · exact h
        · exact absurd h hU.ne'
      have h3 : n = 0 := by exact_mod_cast h2
      subst h3
      rw [← hfl]
      norm_num

theorem rep_round {n : ℕ} (h : RepNat n) : RepNat ((2 * n + UN) / (2 * UN) * UN) := by
  have hp := UN_pos
  rcases Nat.lt_or_ge n (2 ^ 53 * UN) with h1 | h1
  · apply rep_mul_UN
    have : 2 * n + UN < (2 ^ 53 + 1) * (2 * UN) := by nlinarith
    have := (Nat.div_lt_iff_lt_mul (by omega : 0 < 2 * UN)).mpr this
    omega
  · obtain ⟨k, hk⟩ := UN_dvd_of_large h h1
    have : (2 * n + UN) / (2 * UN) = k := by
      rw [hk]
      apply Nat.div_eq_of_lt_le <;> nlinarith
    rw [this, Nat.mul_comm, ← hk]
    exact h

theorem round_lt {n : ℕ} (h : RepNat n) (h2 : n < OVN) : (2 * n + UN) / (2 * UN) * UN < OVN := by
  have hp := UN_pos
  rcases Nat.lt_or_ge n (2 ^ 53 * UN) with h1 | h1
  · have : 2 * n + UN < (2 ^ 53 + 1) * (2 * UN) := by nlinarith
    have := (Nat.div_lt_iff_lt_mul (by omega : 0 < 2 * UN)).mpr this
    have h3 : (2 * n + UN) / (2 * UN) * UN ≤ 2 ^ 53 * UN := Nat.mul_le_mul_right _ (by omega)
    exact h3.trans_lt two_pow_UN_lt_OVN
  · obtain ⟨k, hk⟩ := UN_dvd_of_large h h1
    have : (2 * n + UN) / (2 * UN) = k := by
      rw [hk]
      apply Nat.div_eq_of_lt_le <;> nlinarith
    rw [this, Nat.mul_comm, ← hk]
    exact h2

/-- `round` is exact. -/
theorem round_spec {x : F64} (hx : isFin x = true) :
    isFin (round x) = true ∧ v (round x) = roundQ (v x) := by
  match x, hx with
  | fin s n h, _ =>
    simp only [round]
    rw [ofQuot_exact s _ (rep_round h.1) (round_lt h.1 h.2), roundQ_v]
    refine ⟨rfl, ?_⟩
    simp only [v, sval_cast]
    push_cast
    change _ * (_ * U) / U = _
    have := U_pos
    field_simp

/-! ### Comparisons and casts -/

theorem lt_spec {x y : F64} (hx : isFin x = true) (hy : isFin y = true) :
    lt x y = decide (v x < v y) := by
  match x, y, hx, hy with
  | fin s a ha, fin t b hb, _, _ =>
    simp only [lt, v]
    congr 1
    rw [div_lt_div_iff_of_pos_right U_pos]
    simp

theorem le_spec {x y : F64} (hx : isFin x = true) (hy : isFin y = true) :
    le x y = decide (v x ≤ v y) := by
  match x, y, hx, hy with
  | fin s a ha, fin t b hb, _, _ =>
    simp only [le, v]
    congr 1
    rw [div_le_div_iff_of_pos_right U_pos]
    simp

theorem castSat_spec {x : F64} (hx : isFin x = true) (lo hi : ℤ) :
    castSat lo hi x = max lo (min hi (truncQ (v x))) := by
  match x, hx with
  | fin s n h, _ =>
    rw [truncQ_v]
    rfl

theorem castSat_exact {x : F64} (hx : isFin x = true) (lo hi : ℤ) (h1 : lo ≤ truncQ (v x))
    (h2 : truncQ (v x) ≤ hi) : castSat lo hi x = truncQ (v x) := by
  rw [castSat_spec hx]
  omega

/-! ### `truncQ`, `roundQ` facts -/

theorem truncQ_int (z : ℤ) : truncQ (z : ℚ) = z := by
  unfold truncQ
  split
  · have : -(z : ℚ) = ((-z : ℤ) : ℚ) := by push_cast; ring
    rw [this, Int.floor_intCast]; ring
  · exact Int.floor_intCast z

theorem truncQ_nonneg {x : ℚ} (h : 0 ≤ x) : truncQ x = ⌊x⌋ := by
  unfold truncQ; rw [if_neg (not_lt.mpr h)]

theorem truncQ_neg (x : ℚ) : truncQ (-x) = - truncQ x := by
  unfold truncQ
  rcases lt_trichotomy x 0 with h | h | h
  · rw [if_pos h, if_neg (by linarith)]; ring
  · subst h; simp
  · rw [if_pos (by linarith : -x < 0), if_neg (by linarith : ¬ x < 0)]; simp

theorem roundQ_neg (x : ℚ) : roundQ (-x) = - roundQ x := by
  unfold roundQ
  rcases lt_trichotomy x 0 with h | h | h
  · rw [if_pos h, if_neg (by linarith)]; ring
  · subst h
    norm_num
  · rw [if_pos (by linarith : -x < 0), if_neg (by linarith : ¬ x < 0)]; simp

theorem roundQ_int (z : ℤ) : roundQ (z : ℚ) = z := by
  have key : ∀ z : ℤ, 0 ≤ z → roundQ (z : ℚ) = z := by
    intro z hz
    have : ¬ ((z : ℚ) < 0) := by push Not; exact_mod_cast hz
    unfold roundQ
    rw [if_neg this, Int.floor_eq_iff]
    constructor <;> linarith
  rcases le_total 0 z with h | h
  · exact key z h
  · have := key (-z) (by omega)
    push_cast at this
    rw [roundQ_neg] at this
    omega

/-- Values closer than one half to an integer round to it. -/
theorem roundQ_near {x : ℚ} {z : ℤ} (h : |x - z| < 1 / 2) : roundQ x = z := by
  rw [abs_lt] at h
  unfold roundQ
  split
  · have : ⌊-x + 1 / 2⌋ = -z := by
      rw [Int.floor_eq_iff]; push_cast; constructor <;> linarith
    omega
  · rw [Int.floor_eq_iff]; constructor <;> linarith

end F64
end Verif
