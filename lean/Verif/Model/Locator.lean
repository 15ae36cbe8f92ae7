import Verif.Model.Fundargs
import Verif.Model.Time

/-!
# Model of `crates/tofas/src/locator.rs`
-/

namespace Verif
open Arith

/-- locator.rs:28: multipliers of the eight fundamental arguments. -/
def KS0 : List (List ℤ) := [
  [0, 0, 0, 0, 1, 0, 0, 0],
  [0, 0, 0, 0, 2, 0, 0, 0],
  [0, 0, 2, -2, 3, 0, 0, 0],
  [0, 0, 2, -2, 1, 0, 0, 0],
  [0, 0, 2, -2, 2, 0, 0, 0],
  [0, 0, 2, 0, 3, 0, 0, 0],
  [0, 0, 2, 0, 1, 0, 0, 0],
  [0, 0, 0, 0, 3, 0, 0, 0],
  [0, 1, 0, 0, 1, 0, 0, 0],
  [0, 1, 0, 0, -1, 0, 0, 0],
  [1, 0, 0, 0, -1, 0, 0, 0],
  [1, 0, 0, 0, 1, 0, 0, 0],
  [0, 1, 2, -2, 3, 0, 0, 0],
  [0, 1, 2, -2, 1, 0, 0, 0],
  [0, 0, 4, -4, 4, 0, 0, 0],
  [0, 0, 1, -1, 1, -8, 12, 0],
  [0, 0, 2, 0, 0, 0, 0, 0],
  [0, 0, 2, 0, 2, 0, 0, 0],
  [1, 0, 2, 0, 3, 0, 0, 0],
  [1, 0, 2, 0, 1, 0, 0, 0],
  [0, 0, 2, -2, 0, 0, 0, 0],
  [0, 1, -2, 2, -3, 0, 0, 0],
  [0, 1, -2, 2, -1, 0, 0, 0],
  [0, 0, 0, 0, 0, 8, -13, -1],
  [0, 0, 0, 2, 0, 0, 0, 0],
  [2, 0, -2, 0, -1, 0, 0, 0],
  [0, 1, 2, -2, 2, 0, 0, 0],
  [1, 0, 0, -2, 1, 0, 0, 0],
  [1, 0, 0, -2, -1, 0, 0, 0],
  [0, 0, 4, -2, 4, 0, 0, 0],
  [0, 0, 2, -2, 4, 0, 0, 0],
  [1, 0, -2, 0, -3, 0, 0, 0],
  [1, 0, -2, 0, -1, 0, 0, 0]]

/-- locator.rs:109, in units of `10^-8`. -/
def SS0 : List (ℤ × ℤ) := [
  (-264073, 39),
  (-6353, 2),
  (-1175, -1),
  (-1121, -1),
  (457, 0),
  (-202, 0),
  (-198, 0),
  (172, 0),
  (141, 1),
  (126, 1),
  (63, 0),
  (63, 0),
  (-46, 0),
  (-45, 0),
  (-36, 0),
  (24, 12),
  (-32, 0),
  (-28, 0),
  (-27, 0),
  (-26, 0),
  (21, 0),
  (-19, 0),
  (-18, 0),
  (10, -5),
  (-15, 0),
  (14, 0),
  (14, 0),
  (-14, 0),
  (-14, 0),
  (-13, 0),
  (11, 0),
  (-11, 0),
  (-11, 0)]

/-- locator.rs:64: multipliers of the eight fundamental arguments. -/
def KS1 : List (List ℤ) := [
  [0, 0, 0, 0, 2, 0, 0, 0],
  [0, 0, 0, 0, 1, 0, 0, 0],
  [0, 0, 2, -2, 3, 0, 0, 0]]

/-- locator.rs:145, in units of `10^-8`. -/
def SS1 : List (ℤ × ℤ) := [
  (-7, 357),
  (171, -3),
  (0, 48)]

/-- locator.rs:70: multipliers of the eight fundamental arguments. -/
def KS2 : List (List ℤ) := [
  [0, 0, 0, 0, 1, 0, 0, 0],
  [0, 0, 2, -2, 2, 0, 0, 0],
  [0, 0, 2, 0, 2, 0, 0, 0],
  [0, 0, 0, 0, 2, 0, 0, 0],
  [0, 1, 0, 0, 0, 0, 0, 0],
  [1, 0, 0, 0, 0, 0, 0, 0],
  [0, 1, 2, -2, 2, 0, 0, 0],
  [0, 0, 2, 0, 1, 0, 0, 0],
  [1, 0, 2, 0, 2, 0, 0, 0],
  [0, 1, -2, 2, -2, 0, 0, 0],
  [1, 0, 0, -2, 0, 0, 0, 0],
  [0, 0, 2, -2, 1, 0, 0, 0],
  [1, 0, -2, 0, -2, 0, 0, 0],
  [0, 0, 0, 2, 0, 0, 0, 0],
  [1, 0, 0, 0, 1, 0, 0, 0],
  [1, 0, -2, -2, -2, 0, 0, 0],
  [1, 0, 0, 0, -1, 0, 0, 0],
  [1, 0, 2, 0, 1, 0, 0, 0],
  [2, 0, 0, -2, 0, 0, 0, 0],
  [2, 0, -2, 0, -1, 0, 0, 0],
  [0, 0, 2, 2, 2, 0, 0, 0],
  [2, 0, 2, 0, 2, 0, 0, 0],
  [2, 0, 0, 0, 0, 0, 0, 0],
  [1, 0, 2, -2, 2, 0, 0, 0],
  [0, 0, 2, 0, 0, 0, 0, 0]]

/-- locator.rs:151, in units of `10^-8`. -/
def SS2 : List (ℤ × ℤ) := [
  (74353, -17),
  (5691, 6),
  (984, -1),
  (-885, 1),
  (-638, -5),
  (-307, 0),
  (223, 0),
  (167, 0),
  (130, 0),
  (93, 0),
  (68, 0),
  (-55, 0),
  (53, 0),
  (-27, 0),
  (-27, 0),
  (-26, 0),
  (-25, 0),
  (22, 0),
  (-21, 0),
  (20, 0),
  (17, 0),
  (13, 0),
  (-13, 0),
  (-12, 0),
  (-11, 0)]

/-- locator.rs:98: multipliers of the eight fundamental arguments. -/
def KS3 : List (List ℤ) := [
  [0, 0, 0, 0, 1, 0, 0, 0],
  [0, 0, 2, -2, 2, 0, 0, 0],
  [0, 0, 2, 0, 2, 0, 0, 0],
  [0, 0, 0, 0, 2, 0, 0, 0]]

/-- locator.rs:179, in units of `10^-8`. -/
def SS3 : List (ℤ × ℤ) := [
  (30, -2351),
  (-3, -139),
  (-1, -24),
  (0, 22)]

/-- locator.rs:105: multipliers of the eight fundamental arguments. -/
def KS4 : List (List ℤ) := [
  [0, 0, 0, 0, 1, 0, 0, 0]]

/-- locator.rs:186, in units of `10^-8`. -/
def SS4 : List (ℤ × ℤ) := [
  (-26, -1)]

/-- The literal `x.xxe-6` with `m = x.xx * 100`. -/
def micro {α : Type} [Arith α] (m : ℤ) : α := lit (m / 100000000)

variable {α : Type} [Arith α]

/-- locator.rs:210-219. -/
def fundArgs (t : α) : List α := [l03 t, lp03 t, f03 t, d03 t, om03 t, ve03 t, e03 t, pa03 t]

/-- locator.rs:228-231: `a = 0.0; for j in 0..8 { a += ks[j] as f64 * fa[j] }`. -/
def argument (ks : List ℤ) (fa : List α) : α :=
  (ks.zip fa).foldl (fun a p => a +. ofInt p.1 *. p.2) (lit 0)

/-- locator.rs:223-234 for one `k`: terms in reverse order, starting from `SP[k]`.  The two tables have
the same length (`ks_ss_lengths`), so `zip` loses nothing and no index is out of bounds. -/
def sCoef [Libm α] (fa : List α) (sp : ℤ) (ks : List (List ℤ)) (ss : List (ℤ × ℤ)) : α :=
  (ks.zip ss).reverse.foldl (fun s p =>
    let a := argument p.1 fa
    s +. (micro p.2.1 *. Libm.sin a +. micro p.2.2 *. Libm.cos a)) (micro sp)

/-- locator.rs:207-237.  The constants 9400 ... 1561 are `SP` (locator.rs:18-25) in units of `10^-8`. -/
def cio [Libm α] (tt : α × α) (x y : α) : α :=
  let t := ((tt.1 -. DJ00) +. tt.2) /. DJC
  let fa := fundArgs t
  let s0 := sCoef fa 9400 KS0 SS0
  let s1 := sCoef fa 380835 KS1 SS1
  let s2 := sCoef fa (-11994) KS2 SS2
  let s3 := sCoef fa (-7257409) KS3 SS3
  let s4 := sCoef fa 2770 KS4 SS4
  let s5 := micro 1561
  (s0 +. (s1 +. (s2 +. (s3 +. (s4 +. s5 *. t) *. t) *. t) *. t) *. t) *. AS2R -. (x *. y) /. lit 2

/-- Table shapes. -/
theorem ks_ss_lengths : KS0.length = 33 ∧ SS0.length = 33 ∧ KS1.length = 3 ∧ SS1.length = 3 ∧
    KS2.length = 25 ∧ SS2.length = 25 ∧ KS3.length = 4 ∧ SS3.length = 4 ∧ KS4.length = 1 ∧
    SS4.length = 1 ∧ ∀ ks ∈ KS0 ++ KS1 ++ KS2 ++ KS3 ++ KS4, ks.length = 8 := by decide

end Verif
