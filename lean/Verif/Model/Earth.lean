import Verif.Model.Time
import Verif.Model.Common
import Verif.Model.Epv.E0
import Verif.Model.Epv.E1
import Verif.Model.Epv.E2
import Verif.Model.Epv.S0
import Verif.Model.Epv.S1
import Verif.Model.Epv.S2

/-!
# Model of `crates/tofas/src/earth.rs`

Table accesses are bounds-checked: an index outside a table is a panic (`.error .index`).
-/

namespace Verif
open Arith Epv

/-- earth.rs:6. -/
def AUM {α : Type} [Arith α] : α := lit 149597870700

/-- `row[k]`. -/
def Epv.Row.get (r : Row) (k : Fin 3) : Dec := match k with | 0 => r.x | 1 => r.y | 2 => r.z

/-- The three coefficients `T[0][j][k]`, `T[1][j][k]`, `T[2][j][k]`, if all are in bounds. -/
def Epv.entry? (T : Table) (k : Fin 3) (j : ℕ) : Option (Dec × Dec × Dec) := do
  let r0 ← (← T[0]?)[j]?
  let r1 ← (← T[1]?)[j]?
  let r2 ← (← T[2]?)[j]?
  return (r0.get k, r1.get k, r2.get k)

/-- earth.rs:16-46: numbers of terms. -/
def NE0 (k : Fin 3) : ℕ := match k with | 0 => 501 | 1 => 501 | 2 => 137
def NE1 (k : Fin 3) : ℕ := match k with | 0 => 79 | 1 => 80 | 2 => 12
def NE2 (k : Fin 3) : ℕ := match k with | 0 => 5 | 1 => 5 | 2 => 3
def NS0 (k : Fin 3) : ℕ := match k with | 0 => 212 | 1 => 213 | 2 => 69
def NS1 (k : Fin 3) : ℕ := match k with | 0 => 50 | 1 => 50 | 2 => 14
def NS2 (k : Fin 3) : ℕ := match k with | 0 => 9 | 1 => 9 | 2 => 2

/-- earth.rs:48-52. -/
@[ext] structure PosVel (α : Type) where
  p : Vec3 α
  v : Vec3 α

/-- earth.rs:54-64; `warning` is `true` for `Some(DateOutOfRange)`. -/
structure EarthPosVel (α : Type) where
  heliocentric : PosVel α
  barycentric : PosVel α
  warning : Bool

section
variable {α : Type} [Arith α]

section
variable [Libm α]

/-- One T^0 term (earth.rs:93-100, 130-137). The accumulator is `(xyz, xyzd)`. -/
def term0 (t : α) (acc : α × α) (a b c : α) : α × α :=
  let p := b +. c *. t
  (acc.1 +. a *. Libm.cos p, acc.2 -. (a *. c) *. Libm.sin p)

/-- One T^1 term (earth.rs:103-112, 140-149). -/
def term1 (t : α) (acc : α × α) (a b c : α) : α × α :=
  let ct := c *. t
  let p := b +. ct
  let cp := Libm.cos p
  (acc.1 +. (a *. t) *. cp, acc.2 +. a *. (cp -. ct *. Libm.sin p))

/-- One T^2 term (earth.rs:115-124, 152-161). -/
def term2 (t t2 : α) (acc : α × α) (a b c : α) : α × α :=
  let ct := c *. t
  let p := b +. ct
  let cp := Libm.cos p
  (acc.1 +. (a *. t2) *. cp, acc.2 +. (a *. t) *. (lit 2 *. cp -. ct *. Libm.sin p))

end

/-- The loops `for j in 0..n { ... }` over one table column. -/
def sumSeries (T : Table) (k : Fin 3) (n : ℕ) (f : α × α → α → α → α → α × α) (acc : α × α) :
    Rust (α × α) :=
  (List.range n).foldlM (fun acc j =>
    match entry? T k j with
    | some (a, b, c) => .ok (f acc (lit a.q) (lit b.q) (lit c.q))
    | none => .error .index) acc

variable [Libm α]

/-- earth.rs:89-124: the heliocentric `(xyz, xyzd)` for axis `k`. -/
def helioAxis (t t2 : α) (k : Fin 3) : Rust (α × α) := do
  let acc ← sumSeries E0 k (NE0 k) (term0 t) (lit 0, lit 0)
  let acc ← sumSeries E1 k (NE1 k) (term1 t) acc
  sumSeries E2 k (NE2 k) (term2 t t2) acc

/-- earth.rs:129-161: continue with the Sun's terms. -/
def baryAxis (t t2 : α) (k : Fin 3) (acc : α × α) : Rust (α × α) := do
  let acc ← sumSeries S0 k (NS0 k) (term0 t) acc
  let acc ← sumSeries S1 k (NS1 k) (term1 t) acc
  sumSeries S2 k (NS2 k) (term2 t t2) acc

omit [Libm α] in
/-- earth.rs:167-197: ecliptic to ICRF (constants earth.rs:8-14). -/
def toICRF (v : Vec3 α) : Vec3 α :=
  ⟨(v.x +. lit 0.000000211284 *. v.y) +. lit (-0.000000091603) *. v.z,
   (lit (-0.000000230286) *. v.x +. lit 0.917482137087 *. v.y) +. lit (-0.397776982902) *. v.z,
   lit 0.397776982902 *. v.y +. lit 0.917482137087 *. v.z⟩

/-- earth.rs:88-165, one pass of the outer loop: `(ph[k], vh[k], pb[k], vb[k])`. -/
def axisPosVel (t t2 : α) (k : Fin 3) : Rust (α × α × α × α) := do
  let h ← helioAxis t t2 k
  let b ← baryAxis t t2 k h
  return (h.1, h.2 /. DJY, b.1, b.2 /. DJY)

/-- earth.rs:66-205. -/
def EarthPosVel.fromTDB (d : α × α) : Rust (EarthPosVel α) := do
  let t := ((d.1 -. DJ00) +. d.2) /. DJY
  let t2 := t *. t
  let ok := Arith.abs t <. lit 100
  let x ← axisPosVel t t2 0
  let y ← axisPosVel t t2 1
  let z ← axisPosVel t t2 2
  return { heliocentric := ⟨toICRF ⟨x.1, y.1, z.1⟩, toICRF ⟨x.2.1, y.2.1, z.2.1⟩⟩
           barycentric := ⟨toICRF ⟨x.2.2.1, y.2.2.1, z.2.2.1⟩, toICRF ⟨x.2.2.2, y.2.2.2, z.2.2.2⟩⟩
           warning := !ok }

omit [Libm α] in
/-- earth.rs:208-214. -/
def rotationAngle (u : α × α) : α :=
  let d := if u.1 <. u.2 then (u.1, u.2) else (u.2, u.1)
  let t := d.1 +. (d.2 -. DJ00)
  let f := (d.1 %. lit 1) +. (d.2 %. lit 1)
  anp (TWO_PI *. ((f +. lit 0.7790572732640) +. lit 0.00273781191135448 *. t))

/-- earth.rs:221-226. -/
def polarMotionMatrix (xp yp sp : α) : Mat3 α :=
  (((Mat3.identity).compose (Mat3.rotation 0 (Arith.neg yp))).compose
    (Mat3.rotation 1 (Arith.neg xp))).compose (Mat3.rotation 2 sp)

end
end Verif
