import Verif.Model.TestSofa

/-!
# Model of the program that the sun angle calculator was checked against

`fortran/test_sun.f90`: the time scales it computes and what it prints.  Its calls of SOFA (`iau_CAL2JD`, `iau_DAT`, `iau_C2T00B`,
`iau_EPV00`) are not part of the repository: the day number, delta AT, the matrix and the position are arguments.
-/

namespace Verif
open Arith

/-- The second parts of the dates of test_sun.f90; the first part is `DJMJD0`. -/
structure TestSunTimes (α : Type) where
  utc : α
  tai : α
  tt : α
  tut : α
  ut1 : α

/-- test_sun.f90:38-46. -/
def testSunTimes {α : Type} [Arith α] (ih min : ℤ) (sec date dat dut1 : α) : TestSunTimes α :=
  let time := (lit 60 *. (lit 60 *. Arith.ofInt ih +. Arith.ofInt min) +. sec) /. lit 86400
  let utc := date +. time
  let tai := utc +. dat /. lit 86400
  let tt := tai +. lit 32.184 /. lit 86400
  let tut := time +. dut1 /. lit 86400
  let ut1 := date +. tut
  ⟨utc, tai, tt, tut, ut1⟩

/-- test_sun.f90:50-62. -/
def testSunText (t : TestSunTimes F64) (rc2t : FMat) (ph : ℕ → F64) : List Char :=
  ldWrite [.str "TT=", .real t.tt] ++ ldWrite [.str "TUT=", .real t.tut] ++ ldWrite [.str "UT1=", .real t.ut1] ++ ldWrite [.str "RC2T="] ++
  ((List.range 3).map fun i => ((List.range 3).map fun j => ldWrite [.real (rc2t i j)]).flatten).flatten ++
  ldWrite [.str "PH=", .real (ph 0), .real (ph 1), .real (ph 2)]

end Verif
