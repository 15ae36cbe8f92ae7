import Verif.Arith

/-!
# The binary64 operations in a form the kernel evaluates quickly

`Nat.log2` takes one step per bit in the kernel.  Here it is found by bisection.  `fast_eq` says the operations are the same, so
that a statement about the model at `F64` can be evaluated with these.
-/

namespace Verif

/-- `log2 n` for `n < 2^(2^j)`, by bisection. -/
def lg : ℕ → ℕ → ℕ
  | 0, _ => 0
  | j + 1, n => bif Nat.blt n (2 ^ 2 ^ j) then lg j n else 2 ^ j + lg j (n / 2 ^ 2 ^ j)

theorem lg_eq : ∀ (j n : ℕ), n < 2 ^ 2 ^ j → lg j n = n.log2
  | 0, n, h => by
    have : n = 0 ∨ n = 1 := by norm_num at h; omega
    rcases this with rfl | rfl <;> decide
  | j + 1, n, h => by
    unfold lg
    by_cases c : n < 2 ^ 2 ^ j
    · rw [show Nat.blt n (2 ^ 2 ^ j) = true from Nat.blt_eq.mpr c]
      exact lg_eq j n c
    · rw [show Nat.blt n (2 ^ 2 ^ j) = false from Bool.eq_false_iff.mpr fun hb => c (Nat.blt_eq.mp hb)]
      simp only [cond_false]
      have hd : n / 2 ^ 2 ^ j < 2 ^ 2 ^ j := by
        rw [Nat.div_lt_iff_lt_mul (by positivity), ← pow_add, ← two_mul, ← pow_succ']
        exact h
      rw [lg_eq j _ hd]
      have hn : n ≠ 0 := by rintro rfl; exact c (by positivity)
      have hq : n / 2 ^ 2 ^ j ≠ 0 := Nat.div_ne_zero_iff.mpr ⟨by positivity, not_lt.mp c⟩
      refine le_antisymm ?_ ?_
      · rw [Nat.le_log2 hn, pow_add, mul_comm]
        exact (Nat.mul_le_mul_right _ (Nat.log2_self_le hq)).trans (Nat.div_mul_le_self _ _)
      · rw [← Nat.lt_succ_iff, Nat.log2_lt hn]
        have h1 : n / 2 ^ 2 ^ j < 2 ^ ((n / 2 ^ 2 ^ j).log2 + 1) := Nat.lt_log2_self
        rw [Nat.div_lt_iff_lt_mul (by positivity), ← pow_add] at h1
        exact h1.trans_eq (by congr 1; omega)

namespace F64

/-- `ulpExp`. -/
def ulpExpFast (n : ℕ) : ℕ := bif Nat.blt n (Nat.pow 2 (Nat.pow 2 12)) then lg 12 n - 52 else ulpExp n

theorem ulpExpFast_eq (n : ℕ) : ulpExpFast n = ulpExp n := by
  unfold ulpExpFast
  obtain ⟨k, hk⟩ : ∃ k : ℕ, k = 12 := ⟨_, rfl⟩
  rw [← hk]
  by_cases c : n < 2 ^ 2 ^ k
  · rw [show Nat.blt n (Nat.pow 2 (Nat.pow 2 k)) = true from Nat.blt_eq.mpr c, cond_true, lg_eq _ _ c]
    rfl
  · rw [show Nat.blt n (Nat.pow 2 (Nat.pow 2 k)) = false from Bool.eq_false_iff.mpr fun hb => c (Nat.blt_eq.mp hb)]
    rfl

/-- `rhe`. -/
def rheFast (p k : ℕ) : ℕ :=
  bif Nat.blt (2 * (p % k)) k then p / k
  else bif Nat.blt k (2 * (p % k)) then p / k + 1
  else p / k + (p / k) % 2

theorem rheFast_eq (p k : ℕ) : rheFast p k = rhe p k := by
  unfold rheFast rhe
  have b : ∀ a b : ℕ, Nat.blt a b = decide (a < b) := fun a b => by
    rw [Bool.eq_iff_iff, Nat.blt_eq, decide_eq_true_eq]
  rw [b, b]
  simp only [Bool.cond_decide]

/-- `rndMag`. -/
def rndFast (p q : ℕ) : ℕ := rheFast p (q * Nat.pow 2 (ulpExpFast (p / q))) * Nat.pow 2 (ulpExpFast (p / q))

theorem rndFast_eq (p q : ℕ) : rndFast p q = rndMag p q := by
  unfold rndFast rndMag
  rw [ulpExpFast_eq, rheFast_eq]
  rfl

/-- `ofQuot`. -/
def ofQuotF (s : Bool) (p q : ℕ) : F64 := mkFin s (rndFast p q) (rndFast_eq p q ▸ rndMag_rep p q)

theorem ofQuotF_eq (s : Bool) (p q : ℕ) : ofQuotF s p q = ofQuot s p q := by
  have key : ∀ (n m : ℕ) (hn : RepNat n) (hm : RepNat m), n = m → mkFin s n hn = mkFin s m hm := by
    rintro n m hn hm rfl
    rfl
  exact key _ _ _ _ (rndFast_eq p q)

/-- `ofRat`. -/
def ofRatF (q : ℚ) : F64 := ofQuotF (decide (q < 0)) (q.num.natAbs * UN) q.den

/-- `add`. -/
def addF : F64 → F64 → F64
  | nan, _ => nan
  | _, nan => nan
  | inf s, inf t => if s = t then inf s else nan
  | inf s, fin _ _ _ => inf s
  | fin _ _ _, inf t => inf t
  | fin s a _, fin t b _ =>
    if sval s a + sval t b = 0 then ofQuotF (s && t) 0 1
    else ofQuotF (decide (sval s a + sval t b < 0)) (sval s a + sval t b).natAbs 1

/-- `mul`. -/
def mulF : F64 → F64 → F64
  | nan, _ => nan
  | _, nan => nan
  | inf s, inf t => inf (s ^^ t)
  | inf s, fin t b _ => if b = 0 then nan else inf (s ^^ t)
  | fin s a _, inf t => if a = 0 then nan else inf (s ^^ t)
  | fin s a _, fin t b _ => ofQuotF (s ^^ t) (a * b) UN

/-- `div`. -/
def divF : F64 → F64 → F64
  | nan, _ => nan
  | _, nan => nan
  | inf _, inf _ => nan
  | inf s, fin t _ _ => inf (s ^^ t)
  | fin s _ _, inf t => ofQuotF (s ^^ t) 0 1
  | fin s a _, fin t b _ =>
    if b = 0 then (if a = 0 then nan else inf (s ^^ t)) else ofQuotF (s ^^ t) (a * UN) b

/-- `rem`. -/
def remF : F64 → F64 → F64
  | nan, _ => nan
  | _, nan => nan
  | inf _, _ => nan
  | fin s a h, inf _ => fin s a h
  | fin s a _, fin _ b _ => if b = 0 then nan else ofQuotF s (a % b) 1

theorem addF_eq (x y : F64) : addF x y = add x y := by
  cases x <;> cases y <;> simp only [addF, add, zero, ofQuotF_eq]

theorem mulF_eq (x y : F64) : mulF x y = mul x y := by
  cases x <;> cases y <;> simp only [mulF, mul, ofQuotF_eq]

theorem divF_eq (x y : F64) : divF x y = div x y := by
  cases x <;> cases y <;> simp only [divF, div, zero, ofQuotF_eq]

theorem remF_eq (x y : F64) : remF x y = rem x y := by
  cases x <;> cases y <;> simp only [remF, rem, ofQuotF_eq]

/-- The operations. -/
@[reducible] def fast : Arith F64 where
  lit := ofRatF
  pi := ofQuotF false (0x1921FB54442D18 * 2 ^ (1074 - 51)) 1
  ofInt z := ofRatF z
  add := addF
  sub x y := addF x (neg y)
  mul := mulF
  div := divF
  rem := remF
  neg := neg
  abs := abs
  sqrt := sqrt
  floor := floor
  round := round
  trunc := trunc
  lt := lt
  le := le
  castSat := castSat

theorem fast_eq : (inferInstance : Arith F64) = fast := by
  have h : ∀ q, ofRatF q = ofRat q := fun q => ofQuotF_eq _ _ _
  have hp : ofQuotF false (0x1921FB54442D18 * 2 ^ (1074 - 51)) 1 = pi := ofQuotF_eq _ _ _
  unfold fast
  simp only [hp]
  have e1 : ofRatF = ofRat := funext h
  have e2 : addF = add := funext fun x => funext fun y => addF_eq x y
  have e3 : mulF = mul := funext fun x => funext fun y => mulF_eq x y
  have e4 : divF = div := funext fun x => funext fun y => divF_eq x y
  have e5 : remF = rem := funext fun x => funext fun y => remF_eq x y
  rw [e1, e2, e3, e4, e5]
  rfl

end F64
end Verif
