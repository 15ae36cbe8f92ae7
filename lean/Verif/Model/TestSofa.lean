import Verif.Model.Dump

/-!
# Model of the program that wrote the test data

`fortran/test_sofa.f90`: what it prints, as a function of the numbers drawn and computed (the SOFA library and the generator of
random numbers are not part of the repository).  List-directed output as gfortran implements it, for `double precision`: a
record starts with a blank; items are separated by a blank, except two strings; a number is rounded half-even to seventeen
significant digits and is written without exponent if it then is at least 0.1 and less than 10^17, right aligned in twenty
columns and followed by five blanks, otherwise with a digit before the point and three digits of exponent, right aligned in 25
columns; zero is `0.0000000000000000`.  Arrays are functions of indices counted from 0.
-/

namespace Verif
open F64

/-- Right alignment. -/
def rightAlign (w : ℕ) (l : List Char) : List Char := List.replicate (w - l.length) ' ' ++ l

/-- `m` divided by `10^k`, with `k` digits after the point. -/
def pointText (k m : ℕ) : List Char := dec (m / 10 ^ k) ++ '.' :: if k = 0 then [] else padLeft k (dec (m % 10 ^ k))

/-- A number without its sign, and whether there is an exponent. -/
def ldMag (n : ℕ) : List Char × Bool :=
  let d := eDigits 17 n
  if n = 0 then (pointText 16 0, false)
  else if 0 ≤ d.2 ∧ d.2 ≤ 17 then (pointText (17 - d.2.toNat) d.1, false)
  else (pointText 16 d.1 ++ 'E' :: (if d.2 - 1 < 0 then '-' else '+') :: padLeft 3 (dec (d.2 - 1).natAbs), true)

/-- A number in a list-directed record. -/
def ldReal : F64 → List Char
  | nan => rightAlign 25 "NaN".toList
  | inf s => rightAlign 25 (fmtSign false s ++ "Infinity".toList)
  | fin s n _ =>
    if (ldMag n).2 then rightAlign 25 (fmtSign false s ++ (ldMag n).1)
    else rightAlign 20 (fmtSign false s ++ (ldMag n).1) ++ List.replicate 5 ' '

/-- An output item. -/
inductive LdItem where
  | str (s : String)
  | real (x : F64)

/-- The items of a record; the flag tells whether the item before was a number. -/
def ldItems : Bool → List LdItem → List Char
  | _, [] => []
  | num, .str s :: l => (if num then [' '] else []) ++ s.toList ++ ldItems false l
  | _, .real x :: l => ' ' :: (ldReal x ++ ldItems true l)

/-- `write (*,*) ...`. -/
def ldWrite (l : List LdItem) : List Char := ' ' :: (ldItems false l ++ ['\n'])

/-- A two-dimensional array. -/
abbrev FMat := ℕ → ℕ → F64

/-- A row of a matrix, test_sofa.f90:63-68. -/
def matRow (c : ℕ) (a : ℕ → F64) : List Char :=
  '[' :: (((List.range c).map fun j => (if 0 < j then [','] else []) ++ fmtE 25 17 (a j)).flatten ++ [']', ','])

/-- test_sofa.f90:58-71; the last statement ends the record in which the rows are. -/
def writeMat (r c : ℕ) (a : FMat) : List Char :=
  ldWrite [.str "["] ++ ((List.range r).map fun i => matRow c (a i)).flatten ++ ldWrite [.str "]"]

/-- A list of values, one call of a test: heading, records, end. -/
def writeTable {β : Type} (head : String) (rec : β → List Char) (l : List β) : List Char :=
  ldWrite [.str head] ++ (l.map rec).flatten ++ ldWrite [.str "];"]

/-- A record of numbers, test_sofa.f90:53, 124, 138, 190. -/
def numsRecord (x : F64) (l : List F64) : List Char :=
  ldWrite (.str "(" :: .real x :: (l.flatMap fun y => [.str ",", .real y]) ++ [.str "),"])

/-- Numbers and a matrix, test_sofa.f90:37-39, 153-155, 170-172, 213-215. -/
def numsMatRecord (x : F64) (l : List F64) (a : FMat) : List Char :=
  ldWrite (.str "(" :: .real x :: (l.flatMap fun y => [.str ",", .real y]) ++ [.str ","]) ++ writeMat 3 3 a ++ ldWrite [.str "),"]

/-- test_sofa.f90:15-20. -/
def pomRecord (d : F64 × F64 × F64 × FMat) : List Char :=
  ldWrite [.str "(", .real d.1, .str ",", .real d.2.1, .str ",", .real d.2.2.1, .str ",", .str "[",
    .str "[", .real (d.2.2.2 0 0), .str ",", .real (d.2.2.2 0 1), .str ",", .real (d.2.2.2 0 2), .str "],",
    .str "[", .real (d.2.2.2 1 0), .str ",", .real (d.2.2.2 1 1), .str ",", .real (d.2.2.2 1 2), .str "],",
    .str "[", .real (d.2.2.2 2 0), .str ",", .real (d.2.2.2 2 1), .str ",", .real (d.2.2.2 2 2), .str "],",
    .str "]),"]

/-- test_sofa.f90:82-88. -/
def cioRecord (d : FMat × F64 × FMat × FMat) : List Char :=
  ldWrite [.str "("] ++ writeMat 3 3 d.1 ++ ldWrite [.str ",", .real d.2.1, .str ","] ++ writeMat 3 3 d.2.2.1 ++
  ldWrite [.str ","] ++ writeMat 3 3 d.2.2.2 ++ ldWrite [.str "),"]

/-- test_sofa.f90:103-109. -/
def biasRecord (d : F64 × F64 × FMat × FMat × FMat) : List Char :=
  ldWrite [.str "(", .real d.1, .str ",", .real d.2.1, .str ",["] ++ writeMat 3 3 d.2.2.1 ++ ldWrite [.str ","] ++
  writeMat 3 3 d.2.2.2.1 ++ ldWrite [.str ","] ++ writeMat 3 3 d.2.2.2.2 ++ ldWrite [.str "]),"]

/-- The numbers drawn and computed in a run. -/
structure SofaData where
  pom : List (F64 × F64 × F64 × FMat)
  nut : List (F64 × F64 × F64 × F64)
  numat : List (F64 × F64 × F64 × FMat)
  bias : List (F64 × F64 × FMat × FMat × FMat)
  era : List (F64 × F64 × F64)
  pr : List (F64 × F64 × F64 × F64)
  pnm : List (F64 × F64 × FMat)
  c2i : List (F64 × F64 × FMat)
  cio : List (FMat × F64 × FMat × FMat)
  s00 : List (F64 × F64 × F64 × F64 × F64)
  c2t : List ((F64 × F64 × F64 × F64 × F64 × F64 × F64 × F64) × FMat)

/-- test_sofa.f90:221-237. -/
def testSofa (D : SofaData) : List Char :=
  ldWrite [.str "use crate::common::*;"] ++
  writeTable "pub const POM00_DATA : &[(R,R,R,[[R;3];3])] = &[" pomRecord D.pom ++
  writeTable "pub const NUT00B_DATA : &[(R,R,R,R)] = &[" (fun d => numsRecord d.1 [d.2.1, d.2.2.1, d.2.2.2]) D.nut ++
  writeTable "pub const NUMAT_DATA : &[(R,R,R,[[R;3];3])] = &[" (fun d => numsMatRecord d.1 [d.2.1, d.2.2.1] d.2.2.2) D.numat ++
  writeTable "pub const BP00_DATA : &[(R,R,[[[R;3];3];3])] = &[" biasRecord D.bias ++
  writeTable "pub const ERA00_DATA : &[(R,R,R)] = &[" (fun d => numsRecord d.1 [d.2.1, d.2.2]) D.era ++
  writeTable "pub const PR00_DATA : &[(R,R,R,R)] = &[" (fun d => numsRecord d.1 [d.2.1, d.2.2.1, d.2.2.2]) D.pr ++
  writeTable "pub const PNM00B_DATA : &[(R,R,[[R;3];3])] = &[" (fun d => numsMatRecord d.1 [d.2.1] d.2.2) D.pnm ++
  writeTable "pub const C2I00B_DATA : &[(R,R,[[R;3];3])] = &[" (fun d => numsMatRecord d.1 [d.2.1] d.2.2) D.c2i ++
  writeTable "pub const C2TCIO_DATA : &[([[R;3];3],R,[[R;3];3],[[R;3];3])] = &[" cioRecord D.cio ++
  writeTable "pub const S00_DATA : &[(R,R,R,R,R)] = &[" (fun d => numsRecord d.1 [d.2.1, d.2.2.1, d.2.2.2.1, d.2.2.2.2]) D.s00 ++
  writeTable "pub const C2T00B_DATA : &[(R,R,R,R,R,R,R,R,[[R;3];3])] = &[" (fun d => numsMatRecord d.1.1 [d.1.2.1, d.1.2.2.1,
    d.1.2.2.2.1, d.1.2.2.2.2.1, d.1.2.2.2.2.2.1, d.1.2.2.2.2.2.2.1, d.1.2.2.2.2.2.2.2] d.2) D.c2t

end Verif
