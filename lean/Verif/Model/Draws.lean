import Verif.Model.TestSofa

/-!
# Model of the arguments that `fortran/test_sofa.f90` draws

`random_number` of gfortran for `double precision` is a multiple of `2^-53` below 1; an array is filled column by column.  The
products and sums are separate roundings (no fused operations).  The functions of the SOFA library, which is not part of the repository, are
arguments.  The program makes 41000 draws.
-/

namespace Verif
open Arith

/-- What `random_number` returns for 53 random bits. -/
def unitDraw (m : ℕ) : F64 := lit (m / 2 ^ 53)

/-- test_sofa.f90:3. The literals are of single precision: this one has the value of the number of 24 bits nearest to it, the
others are whole. -/
def TWO_PI_F : F64 := lit (13176795 / 2 ^ 21)
/-- test_sofa.f90:3. -/
def DJ00_F : F64 := lit 2451545
/-- test_sofa.f90:3. -/
def DJC_F : F64 := lit 36525

/-- An array of 3 by 3 draws from the position `k` of the stream. -/
def matDraw (u : ℕ → F64) (k : ℕ) : FMat := fun i j => u (k + i + 3 * j)

/-- test_sofa.f90:135, 150, 167, 185, 206. -/
def tt1Draw (x : F64) : F64 := DJ00_F +. DJC_F *. x

/-- The functions of SOFA that the program calls. -/
structure SofaLib where
  pom : F64 → F64 → F64 → FMat
  nut : F64 → F64 → F64 × F64
  numat : F64 → F64 → F64 → FMat
  bp : F64 → F64 → FMat × FMat × FMat
  era : F64 → F64 → F64
  pr : F64 → F64 → F64 × F64
  pnm : F64 → F64 → FMat
  c2i : F64 → F64 → FMat
  cio : FMat → F64 → FMat → FMat
  s00 : F64 → F64 → F64 → F64 → F64
  tttdb : F64 → F64 → F64 → F64 × F64
  ttut1 : F64 → F64 → F64 → F64 × F64
  c2t : F64 → F64 → F64 → F64 → F64 → F64 → FMat

/-- The steps of a test, test_sofa.f90:4. -/
def steps {β : Type} (f : ℕ → β) : List β := (List.range 1000).map f

/-- test_sofa.f90:6-218, 225-236: the numbers of a run for a stream of draws. -/
def sofaRun (L : SofaLib) (u : ℕ → F64) : SofaData where
  pom := steps fun k => let x := u (3 * k); let y := u (3 * k + 1); let s := u (3 * k + 2); (x, y, s, L.pom x y s)
  nut := steps fun k => let d := u (3000 + k) *. DJC_F; (DJ00_F, d, L.nut DJ00_F d)
  numat := steps fun k =>
    let e := u (4000 + 3 * k) *. TWO_PI_F; let p := u (4000 + 3 * k + 1) *. TWO_PI_F; let d := u (4000 + 3 * k + 2) *. TWO_PI_F
    (e, p, d, L.numat e p d)
  bias := steps fun k => let a := u (7000 + 2 * k) +. DJ00_F; let b := u (7000 + 2 * k + 1); (a, b, L.bp a b)
  era := steps fun k => let d := u (9000 + k) *. DJC_F; (DJ00_F, d, L.era DJ00_F d)
  pr := steps fun k => let a := tt1Draw (u (10000 + 2 * k)); let b := u (10000 + 2 * k + 1); (a, b, L.pr a b)
  pnm := steps fun k => let a := tt1Draw (u (12000 + 2 * k)); let b := u (12000 + 2 * k + 1); (a, b, L.pnm a b)
  c2i := steps fun k => let a := tt1Draw (u (14000 + 2 * k)); let b := u (14000 + 2 * k + 1); (a, b, L.c2i a b)
  cio := steps fun k =>
    let c := matDraw u (16000 + 19 * k); let e := u (16000 + 19 * k + 9); let p := matDraw u (16000 + 19 * k + 10)
    (c, e, p, L.cio c e p)
  s00 := steps fun k =>
    let a := tt1Draw (u (35000 + 4 * k)); let b := u (35000 + 4 * k + 1); let x := u (35000 + 4 * k + 2); let y := u (35000 + 4 * k + 3)
    (a, b, x, y, L.s00 a b x y)
  c2t := steps fun k =>
    let a := tt1Draw (u (39000 + 2 * k)); let b := u (39000 + 2 * k + 1)
    let t := L.tttdb a b (lit 0); let w := L.ttut1 a b (lit 0)
    ((a, b, lit 0, t.1, t.2, lit 0, w.1, w.2), L.c2t a b w.1 w.2 (lit 0) (lit 0))

end Verif
