import Verif.Model.Parse
import Verif.Lemmas.Epv

/-!
# Model of the program that wrote the ephemeris tables

`fortran/dump_epv00.f90` and the calls at the end of `fortran/epv00.for`.  The Fortran `Ew.d` edit descriptor, as gfortran
implements it: the exact value rounded half-even to `d` significant digits, written `0.ddd`, then `E`, a sign and two digits of
exponent, or, when the exponent needs three digits, the sign and three digits without `E`; right aligned in `w` columns, stars
if it does not fit.  Elements of an array that no `DATA` statement mentions are zero, as in the static storage of gfortran.
-/

namespace Verif
open F64 Epv

/-- The `d` significant digits of `n` units of `2^-1074`, and the exponent when they are written after the point. -/
def eDigits (d n : ℕ) : ℕ × ℤ :=
  if n = 0 then (0, 0) else
  let t := inUnits n d
  let m := rhe t.num.natAbs t.den
  let e := lastExp n d + d
  if m = 10 ^ d then (10 ^ (d - 1), e + 1) else (m, e)

/-- The exponent field. -/
def eExp (e : ℤ) : List Char :=
  let s := if e < 0 then '-' else '+'
  if e.natAbs < 100 then 'E' :: s :: padLeft 2 (dec e.natAbs) else s :: padLeft 3 (dec e.natAbs)

/-- The text before alignment. -/
def eBody (d : ℕ) : F64 → List Char
  | nan => "NaN".toList
  | inf s => fmtSign false s ++ "Infinity".toList
  | fin s n _ => fmtSign false s ++ '0' :: '.' :: (padLeft d (dec (eDigits d n).1) ++ eExp (eDigits d n).2)

/-- The edit descriptor `Ew.d`. -/
def fmtE (w d : ℕ) (x : F64) : List Char :=
  let l := eBody d x
  if l.length ≤ w then List.replicate (w - l.length) ' ' ++ l else List.replicate w '*'

/-- dump_epv00.f90:30-38, one row; `i`, `j`, `k` count from 0 here. -/
def dumpRow (i j o : ℕ) (x : ℕ → F64) : List Char :=
  "    [".toList ++ ((List.range o).map fun k => fmtE 23 15 (x k) ++ if k + 1 < o then [','] else []).flatten ++
  "], // ".toList ++ (dec (i + 1) ++ ',' :: (dec (j + 1) ++ ',' :: (dec 1 ++ ':' :: dec o))) ++ ['\n']

/-- dump_epv00.f90:28-40. -/
def dumpBlock (i n o : ℕ) (x : ℕ → ℕ → F64) : List Char :=
  "  [\n".toList ++ ((List.range n).map fun j => dumpRow i j o (x j)).flatten ++ "  ],\n".toList

/-- dump_epv00.f90:4-42, `dump_array`. -/
def dumpArray (name : List Char) (m n o : ℕ) (x : ℕ → ℕ → ℕ → F64) : List Char :=
  "pub const ".toList ++ name ++ " : [[[R;".toList ++ dec o ++ "];".toList ++ dec n ++ "];".toList ++ dec m ++ "] = [\n".toList ++
  ((List.range m).map fun i => dumpBlock i n o (x i)).flatten ++ "];\n".toList

/-- An array of epv00.for, lines 54-2257, from its `DATA` statements: `A(I,J,K)` is component `I` of term `J` of axis `K`. -/
def fortranArray (R : Fin 3 → List (Dec × Dec × Dec)) (i j k : ℕ) : F64 :=
  if hk : k < 3 then
    match (R ⟨k, hk⟩)[j]? with
    | none => Arith.lit 0
    | some t => if i = 0 then Arith.lit t.1.q else if i = 1 then Arith.lit t.2.1.q else Arith.lit t.2.2.q
  else Arith.lit 0

/-- dump_epv00.f90:44-47 and epv00.for:2259-2264, with the sizes of epv00.for:47-55. -/
def dumpEpv00 : List Char :=
  "use common::*;\n".toList ++
  dumpArray "E0".toList 3 501 3 (fortranArray EpvRef.E0) ++
  dumpArray "E1".toList 3 80 3 (fortranArray EpvRef.E1) ++
  dumpArray "E2".toList 3 5 3 (fortranArray EpvRef.E2) ++
  dumpArray "S0".toList 3 213 3 (fortranArray EpvRef.S0) ++
  dumpArray "S1".toList 3 50 3 (fortranArray EpvRef.S1) ++
  dumpArray "S2".toList 3 9 3 (fortranArray EpvRef.S2)

end Verif
