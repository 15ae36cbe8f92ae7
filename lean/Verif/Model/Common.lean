import Verif.Arith
import Verif.I32

/-!
# Model of `crates/tofas/src/common.rs`

`[R;3]` is a structure with three fields, `[[R;3];3]` one with three rows.
-/

namespace Verif
open Arith

/-- common.rs:4 `Vec3 = [R;3]`. -/
@[ext] structure Vec3 (α : Type) where
  x : α
  y : α
  z : α
  deriving DecidableEq

/-- common.rs:5 `Mat3 = [Vec3;3]`: the three rows. -/
@[ext] structure Mat3 (α : Type) where
  r0 : Vec3 α
  r1 : Vec3 α
  r2 : Vec3 α
  deriving DecidableEq

variable {α : Type} [Arith α]

/-- common.rs:8. -/
def sq (x : α) : α := x *. x

/-- common.rs:21. -/
def DEGREE : α := Arith.pi /. lit 180
/-- common.rs:24. -/
def TWO_PI : α := lit 6.283185307179586476925287
/-- common.rs:25. -/
def AS2R : α := lit 4.848136811095359935899141e-6
/-- common.rs:26. -/
def MAS2R : α := AS2R /. lit 1e3
/-- common.rs:27. -/
def TURNAS : α := lit 1296000.0

/-- common.rs:29-36. -/
def anp (a : α) : α :=
  let w := a %. TWO_PI
  if w <. lit 0 then w +. TWO_PI else w

namespace Vec3

/-- common.rs:50-54. -/
def neg (v : Vec3 α) : Vec3 α := ⟨Arith.neg v.x, Arith.neg v.y, Arith.neg v.z⟩
/-- common.rs:56-60. -/
def scale (v : Vec3 α) (c : α) : Vec3 α := ⟨c *. v.x, c *. v.y, c *. v.z⟩
/-- common.rs:62-66. -/
def add (a b : Vec3 α) : Vec3 α := ⟨a.x +. b.x, a.y +. b.y, a.z +. b.z⟩
/-- common.rs:68-72. -/
def sub (a b : Vec3 α) : Vec3 α := ⟨a.x -. b.x, a.y -. b.y, a.z -. b.z⟩
/-- common.rs:74-76. -/
def norm (v : Vec3 α) : α := Arith.sqrt ((sq v.x +. sq v.y) +. sq v.z)
/-- common.rs:78-80. -/
def normalize (v : Vec3 α) : Vec3 α := v.scale (lit 1 /. v.norm)
/-- common.rs:82-84. -/
def dot (a b : Vec3 α) : α := (a.x *. b.x +. a.y *. b.y) +. a.z *. b.z
/-- common.rs:86-88. -/
def angle [Libm α] (a b : Vec3 α) : α := Libm.acos (a.normalize.dot b.normalize)

end Vec3

namespace Mat3

/-- `m[i][j]` for constant indices. -/
def get (m : Mat3 α) (i j : Fin 3) : α :=
  let r := match i with | 0 => m.r0 | 1 => m.r1 | 2 => m.r2
  match j with | 0 => r.x | 1 => r.y | 2 => r.z

/-- Build a matrix from its entries. -/
def ofFn (f : Fin 3 → Fin 3 → α) : Mat3 α :=
  ⟨⟨f 0 0, f 0 1, f 0 2⟩, ⟨f 1 0, f 1 1, f 1 2⟩, ⟨f 2 0, f 2 1, f 2 2⟩⟩

/-- `m[i][j] = v`. -/
def set (m : Mat3 α) (i j : Fin 3) (v : α) : Mat3 α :=
  ofFn fun a b => if a = i ∧ b = j then v else m.get a b

/-- common.rs:104-108. -/
def zero : Mat3 α := ofFn fun _ _ => lit 0

/-- common.rs:110-114. -/
def identity : Mat3 α := ofFn fun i j => if i = j then lit 1 else lit 0

/-- common.rs:116-120. -/
def apply (m : Mat3 α) (x : Vec3 α) : Vec3 α :=
  ⟨(m.r0.x *. x.x +. m.r1.x *. x.y) +. m.r2.x *. x.z,
   (m.r0.y *. x.x +. m.r1.y *. x.y) +. m.r2.y *. x.z,
   (m.r0.z *. x.x +. m.r1.z *. x.y) +. m.r2.z *. x.z⟩

/-- common.rs:122-134.  The accumulator starts at `0.0` and adds the three products in order. -/
def compose (a b : Mat3 α) : Mat3 α :=
  ofFn fun i j =>
    ((lit 0 +. a.get i 0 *. b.get 0 j) +. a.get i 1 *. b.get 1 j) +. a.get i 2 *. b.get 2 j

/-- common.rs:136-144. -/
def transpose (m : Mat3 α) : Mat3 α := ofFn fun i j => m.get j i

/-- common.rs:160-172 for an axis known to be below 3 (all uses in the code have a constant axis). -/
def rotation [Libm α] (axis : Fin 3) (theta : α) : Mat3 α :=
  let c := Libm.cos theta
  let s := Libm.sin theta
  let i0 := axis + 1
  let i1 := axis + 2
  ((((zero.set i0 i0 c).set i0 i1 s).set i1 i0 (Arith.neg s)).set i1 i1 c).set axis axis (lit 1)

/-- common.rs:160-172 with the `usize` axis of the source.  `(axis+1) % 3`, `(axis+2) % 3` are always in
bounds; `r[axis][axis]` is out of bounds for `axis >= 3`.  (`axis + 2` overflowing `usize` in a checked
build is also a panic; both are reported as a panic.) -/
def rotationU [Libm α] (axis : ℕ) (theta : α) : Rust (Mat3 α) :=
  if h : axis < 3 then .ok (rotation ⟨axis, h⟩ theta) else .error .index

end Mat3
end Verif
