import Verif.Model.Frames

/-!
# The loops of `nutation` and `cio` as they are written

`Model/Frames` and `Model/Locator` have these functions as folds over tables.  Here are the loops over indices of the source,
in which an index outside a table is a panic (`.error .index`).  `Props/Loops` shows that the two agree.
-/

namespace Verif
open Arith

variable {α : Type} [Arith α]

/-- `l[i]`. -/
def index {β : Type} (l : List β) (i : ℕ) : Rust β :=
  match l[i]? with
  | some x => .ok x
  | none => .error .index

/-- frames.rs:256-291; rows of `NALS` and `CLS` are arrays of five and six numbers, their indices are constants. -/
def nutationLoop [Libm α] (tt : α × α) : Rust (α × α) := do
  let t := centuries tt
  let el := ((lit 485868.249036 +. lit 1717915923.2178 *. t) %. TURNAS) *. AS2R
  let elp := ((lit 1287104.79305 +. lit 129596581.0481 *. t) %. TURNAS) *. AS2R
  let f := ((lit 335779.526232 +. lit 1739527262.8478 *. t) %. TURNAS) *. AS2R
  let d := ((lit 1072260.70369 +. lit 1602961601.2090 *. t) %. TURNAS) *. AS2R
  let om := ((lit 450160.398036 -. lit 6962890.5431 *. t) %. TURNAS) *. AS2R
  let dpde ← (List.range NLS).reverse.foldlM (fun (acc : α × α) i => do
    let n ← index NALS i
    let arg := nutArg el elp f d om n
    let sarg := Libm.sin arg
    let carg := Libm.cos arg
    let c ← index CLS i
    return (acc.1 +. ((flt c.c0 +. flt c.c1 *. t) *. sarg +. flt c.c2 *. carg),
      acc.2 +. ((flt c.c3 +. flt c.c4 *. t) *. carg +. flt c.c5 *. sarg))) (lit 0, lit 0)
  return (dpde.1 *. U2R +. DPPLAN, dpde.2 *. U2R +. DEPLAN)

/-- locator.rs:18-25, in units of `10^-8`. -/
def SP : List ℤ := [9400, 380835, -11994, -7257409, 2770, 1561]

/-- locator.rs:190-196. -/
def KSS : List (List (List ℤ)) := [KS0, KS1, KS2, KS3, KS4]

/-- locator.rs:198-204. -/
def SSS : List (List (ℤ × ℤ)) := [SS0, SS1, SS2, SS3, SS4]

/-- locator.rs:228-231, with `NFARG = 8`. -/
def argumentLoop (ks : List ℤ) (fa : List α) : Rust α :=
  (List.range 8).foldlM (fun a j => do return a +. ofInt (← index ks j) *. (← index fa j)) (lit 0)

/-- locator.rs:227-233: the terms of one power; the accumulator is `s[k]`. -/
def sCoefLoop [Libm α] (fa : List α) (ksk : List (List ℤ)) (ssk : List (ℤ × ℤ)) (s : α) : Rust α :=
  (List.range ksk.length).reverse.foldlM (fun s i => do
    let a ← argumentLoop (← index ksk i) fa
    let c ← index ssk i
    return s +. (micro c.1 *. Libm.sin a +. micro c.2 *. Libm.cos a)) s

/-- locator.rs:207-237, with `N = 5`. -/
def cioLoop [Libm α] (tt : α × α) (x y : α) : Rust α := do
  let t := ((tt.1 -. DJ00) +. tt.2) /. DJC
  let fa := fundArgs t
  let s ← (List.range 5).foldlM (fun (s : List α) k => do
    let ksk ← index KSS k
    let ssk ← index SSS k
    return s.set k (← sCoefLoop fa ksk ssk (← index s k))) (SP.map micro)
  return ((← index s 0) +. ((← index s 1) +. ((← index s 2) +. ((← index s 3) +. ((← index s 4) +. (← index s 5) *. t) *. t) *. t) *. t) *. t)
    *. AS2R -. (x *. y) /. lit 2

end Verif
