import Verif.Float.Nearest
import Verif.Arith

/-!
# Reasoning about finite binary64 values through the arithmetic interface

`Is x q`: the datum `x` is finite and its value is the rational `q`.
-/

namespace Verif
open F64

/-- `x` is a finite number of value `q`. -/
structure Is (x : F64) (q : ℚ) : Prop where
  fin : isFin x = true
  val : v x = q

namespace Is

theorem self {x : F64} (h : isFin x = true) : Is x (v x) := ⟨h, rfl⟩

theorem rep {x : F64} {a : ℚ} (h : Is x a) : RepQ a := h.val ▸ v_rep x

theorem lt_OVQ {x : F64} {a : ℚ} (h : Is x a) : |a| < OVQ := h.val ▸ v_lt_OVQ x

theorem congr {x : F64} {a b : ℚ} (h : Is x a) (e : a = b) : Is x b := e ▸ h

theorem unique {x : F64} {a b : ℚ} (h : Is x a) (h' : Is x b) : a = b := by
  rw [← h.val, ← h'.val]

variable {x y : F64} {a b : ℚ}

theorem add' (hx : Is x a) (hy : Is y b) (h : |RN (a + b)| < OVQ) : Is (x +. y) (RN (a + b)) := by
  obtain ⟨hx1, rfl⟩ := hx
  obtain ⟨hy1, rfl⟩ := hy
  exact ⟨(add_spec hx1 hy1 h).1, (add_spec hx1 hy1 h).2⟩

theorem sub' (hx : Is x a) (hy : Is y b) (h : |RN (a - b)| < OVQ) : Is (x -. y) (RN (a - b)) := by
  obtain ⟨hx1, rfl⟩ := hx
  obtain ⟨hy1, rfl⟩ := hy
  exact ⟨(sub_spec hx1 hy1 h).1, (sub_spec hx1 hy1 h).2⟩

theorem mul' (hx : Is x a) (hy : Is y b) (h : |RN (a * b)| < OVQ) : Is (x *. y) (RN (a * b)) := by
  obtain ⟨hx1, rfl⟩ := hx
  obtain ⟨hy1, rfl⟩ := hy
  exact ⟨(mul_spec hx1 hy1 h).1, (mul_spec hx1 hy1 h).2⟩

theorem div' (hx : Is x a) (hy : Is y b) (hb : b ≠ 0) (h : |RN (a / b)| < OVQ) :
    Is (x /. y) (RN (a / b)) := by
  obtain ⟨hx1, rfl⟩ := hx
  obtain ⟨hy1, rfl⟩ := hy
  exact ⟨(div_spec hx1 hy1 hb h).1, (div_spec hx1 hy1 hb h).2⟩

theorem add (hx : Is x a) (hy : Is y b) (h : |a + b| ≤ HUGE) : Is (x +. y) (RN (a + b)) :=
  add' hx hy (RN_lt_OVQ h)
theorem sub (hx : Is x a) (hy : Is y b) (h : |a - b| ≤ HUGE) : Is (x -. y) (RN (a - b)) :=
  sub' hx hy (RN_lt_OVQ h)
theorem mul (hx : Is x a) (hy : Is y b) (h : |a * b| ≤ HUGE) : Is (x *. y) (RN (a * b)) :=
  mul' hx hy (RN_lt_OVQ h)
theorem div (hx : Is x a) (hy : Is y b) (hb : b ≠ 0) (h : |a / b| ≤ HUGE) :
    Is (x /. y) (RN (a / b)) := div' hx hy hb (RN_lt_OVQ h)

/-- Sums that are representable are exact. -/
theorem add_exact (hx : Is x a) (hy : Is y b) (hr : RepQ (a + b)) (h : |a + b| < OVQ) :
    Is (x +. y) (a + b) := by
  have := add' hx hy (by rwa [RN_exact hr])
  rwa [RN_exact hr] at this

theorem sub_exact (hx : Is x a) (hy : Is y b) (hr : RepQ (a - b)) (h : |a - b| < OVQ) :
    Is (x -. y) (a - b) := by
  have := sub' hx hy (by rwa [RN_exact hr])
  rwa [RN_exact hr] at this

theorem rem (hx : Is x a) (hy : Is y b) (hb : b ≠ 0) : Is (x %. y) (a - b * truncQ (a / b)) := by
  obtain ⟨hx1, rfl⟩ := hx
  obtain ⟨hy1, rfl⟩ := hy
  exact ⟨(rem_spec hx1 hy1 hb).1, (rem_spec hx1 hy1 hb).2⟩

theorem trunc (hx : Is x a) : Is (Arith.trunc x) (truncQ a) := by
  obtain ⟨hx1, rfl⟩ := hx
  exact ⟨(trunc_spec hx1).1, (trunc_spec hx1).2⟩

theorem round (hx : Is x a) : Is (Arith.round x) (roundQ a) := by
  obtain ⟨hx1, rfl⟩ := hx
  exact ⟨(round_spec hx1).1, (round_spec hx1).2⟩

theorem neg (hx : Is x a) : Is (Arith.neg x) (-a) := by
  obtain ⟨hx1, rfl⟩ := hx
  exact ⟨by rw [← hx1]; exact isFin_neg x, v_neg x⟩

theorem abs (hx : Is x a) : Is (Arith.abs x) |a| := by
  obtain ⟨hx1, rfl⟩ := hx
  exact ⟨by rw [← hx1]; exact isFin_abs x, v_abs x⟩

theorem lt (hx : Is x a) (hy : Is y b) : (x <. y) = decide (a < b) := by
  obtain ⟨hx1, rfl⟩ := hx
  obtain ⟨hy1, rfl⟩ := hy
  exact lt_spec hx1 hy1

theorem le (hx : Is x a) (hy : Is y b) : (x <=. y) = decide (a ≤ b) := by
  obtain ⟨hx1, rfl⟩ := hx
  obtain ⟨hy1, rfl⟩ := hy
  exact le_spec hx1 hy1

theorem castSat (hx : Is x a) (lo hi : ℤ) :
    Arith.castSat lo hi x = max lo (min hi (truncQ a)) := by
  obtain ⟨hx1, rfl⟩ := hx
  exact castSat_spec hx1 lo hi

theorem castSat_int {z : ℤ} (hx : Is x z) (lo hi : ℤ) (h1 : lo ≤ z) (h2 : z ≤ hi) :
    Arith.castSat lo hi x = z := by
  rw [hx.castSat, truncQ_int]
  omega

theorem lit (q : ℚ) (h : |q| ≤ HUGE) : Is (Arith.lit q : F64) (RN q) :=
  ⟨(ofRat_spec q (RN_lt_OVQ h)).1, (ofRat_spec q (RN_lt_OVQ h)).2⟩

theorem lit_exact (q : ℚ) (hr : RepQ q) (h : |q| ≤ HUGE) : Is (Arith.lit q : F64) q := by
  have := Is.lit q h
  rwa [RN_exact hr] at this

theorem lit_int (z : ℤ) (h : |z| ≤ 2 ^ 53) : Is (Arith.lit (z : ℚ) : F64) z :=
  lit_exact _ (RepQ.int z h) (le_HUGE (k := 53) (by exact_mod_cast h) (by norm_num))

theorem lit_nat (n : ℕ) (h : n ≤ 2 ^ 53) : Is (Arith.lit (n : ℚ) : F64) n := by
  have := lit_int n (by rw [Nat.abs_cast]; exact_mod_cast h)
  simpa using this

theorem ofInt (z : ℤ) (h : |z| ≤ 2 ^ 53) : Is (Arith.ofInt z : F64) z :=
  ⟨(ofInt_spec z h).1, (ofInt_spec z h).2⟩

end Is

/-- `m/2^k` is representable. -/
theorem RepQ.dyadic (m : ℤ) (k : ℕ) (hm : |m| ≤ 2 ^ 53) (hk : k ≤ 1074) :
    RepQ ((m : ℚ) / 2 ^ k) :=
  RepQ.of_zpow m (-k) hm (by omega) (by rw [zpow_neg, zpow_natCast]; rfl)

theorem small_le_HUGE {q : ℚ} (h : |q| ≤ 2 ^ 200) : |q| ≤ HUGE := le_HUGE h (by norm_num)

theorem small_lt_OVQ {q : ℚ} (h : |q| ≤ 2 ^ 200) : |q| < OVQ :=
  (small_le_HUGE h).trans_lt HUGE_lt_OVQ

end Verif
