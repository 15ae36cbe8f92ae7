import Verif.Model.Common
import Verif.Model.Display

/-!
# Model of `crates/tofas/src/ellipsoid.rs`
-/

namespace Verif
open Arith

/-- ellipsoid.rs:4-11. -/
structure Ellipsoid (α : Type) where
  a : α
  f : α
  deriving DecidableEq

/-- ellipsoid.rs:21-30. -/
@[ext] structure Geodetic360 (α : Type) where
  lon : α
  lat : α
  height : α
  deriving DecidableEq

/-- ellipsoid.rs:68-78. -/
@[ext] structure Geodetic (α : Type) where
  elong : α
  phi : α
  height : α
  deriving DecidableEq

/-- ellipsoid.rs:107-112. -/
inductive EllipsoidError where
  | invalidRadius
  | invalidFlattening
  | badEccentricity
  | badCoordinates
  deriving DecidableEq

/-- ellipsoid.rs:114-122. -/
structure EllipsoidConverter (α : Type) where
  el : Ellipsoid α
  aeps2 : α
  e2 : α
  e4t : α
  ec2 : α
  ec : α
  b : α
  deriving DecidableEq

variable {α : Type} [Arith α]

/-- ellipsoid.rs:15-18. -/
def WGS84 : Ellipsoid α := ⟨lit 6378137, lit 1 /. lit 298.257223563⟩

/-- ellipsoid.rs:38-46. -/
def Geodetic.from360 (g : Geodetic360 α) : Geodetic α := ⟨g.lon *. DEGREE, g.lat *. DEGREE, g.height⟩

/-- `f64::rem_euclid` of the standard library: `let r = self % rhs; if r < 0.0 { r + rhs.abs() } else { r }`. -/
def remEuclid (x y : α) : α :=
  let r := x %. y
  if r <. lit 0 then r +. Arith.abs y else r

/-- ellipsoid.rs:54-66.  The `debug_assert!`s panic in a checked build only. -/
def Geodetic360.fromGeodetic (p : Profile) (g : Geodetic α) : Rust (Geodetic360 α) :=
  let lon := remEuclid (g.elong /. DEGREE +. lit 180) (lit 360) -. lit 180
  let lat := remEuclid (g.phi /. DEGREE +. lit 90) (lit 180) -. lit 90
  if p = .checked ∧ ¬ ((lit (-180) <=. lon) = true ∧ (lon <=. lit 180) = true) then .error .assert
  else if p = .checked ∧ ¬ ((lit (-90) <=. lat) = true ∧ (lat <=. lit 90) = true) then .error .assert
  else .ok ⟨lon, lat, g.height⟩

/-- ellipsoid.rs:98-105. -/
def Geodetic.zenith [Libm α] (g : Geodetic α) : Vec3 α :=
  ⟨Libm.cos g.phi *. Libm.cos g.elong, Libm.cos g.phi *. Libm.sin g.elong, Libm.sin g.phi⟩

namespace EllipsoidConverter

/-- ellipsoid.rs:125-154. -/
def new (el : Ellipsoid α) : Except EllipsoidError (EllipsoidConverter α) :=
  let a := el.a
  let f := el.f
  if (f <. lit 0) || (lit 1 <=. f) then .error .invalidFlattening
  else if a <. lit 0 then .error .invalidRadius
  else
    let aeps2 := (a *. a) *. lit 1e-32
    let e2 := (lit 2 -. f) *. f
    let e4t := (e2 *. e2) *. lit 1.5
    let ec2 := lit 1 -. e2
    if ec2 <=. lit 0 then .error .badEccentricity
    else
      let ec := Arith.sqrt ec2
      let b := a *. ec
      .ok ⟨el, aeps2, e2, e4t, ec2, ec, b⟩

variable [Libm α]

/-- ellipsoid.rs:178-204: latitude (of `|z|`) and height away from the axis. -/
def latHeight (c : EllipsoidConverter α) (p2 absz : α) : α × α :=
  let a := c.el.a
  let p := Arith.sqrt p2
  let s0 := absz /. a
  let pn := p /. a
  let zc := c.ec *. s0
  let c0 := c.ec *. pn
  let c02 := c0 *. c0
  let c03 := c02 *. c0
  let s02 := s0 *. s0
  let s03 := s02 *. s0
  let a02 := c02 +. s02
  let a0 := Arith.sqrt a02
  let a03 := a02 *. a0
  let d0 := zc *. a03 +. c.e2 *. s03
  let f0 := pn *. a03 -. c.e2 *. c03
  let b0 := (((c.e4t *. s02) *. c02) *. pn) *. (a0 -. c.ec)
  let s1 := d0 *. f0 -. b0 *. s0
  let cc := c.ec *. (f0 *. f0 -. b0 *. c0)
  let phi := Libm.atan (s1 /. cc)
  let s12 := s1 *. s1
  let cc2 := cc *. cc
  let height := ((p *. cc +. absz *. s1) -. a *. Arith.sqrt (c.ec2 *. s12 +. cc2)) /. Arith.sqrt (s12 +. cc2)
  (phi, height)

/-- ellipsoid.rs:164-212. -/
def geocentricToGeodetic (c : EllipsoidConverter α) (v : Vec3 α) : Geodetic α :=
  let p2 := sq v.x +. sq v.y
  let elong := if lit 0 <. p2 then Libm.atan2 v.y v.x else lit 0
  let absz := Arith.abs v.z
  let ph := if c.aeps2 <. p2 then latHeight c p2 absz else (Arith.pi /. lit 2, absz -. c.b)
  let phi := if v.z <. lit 0 then Arith.neg ph.1 else ph.1
  ⟨elong, phi, ph.2⟩

/-- ellipsoid.rs:217-238. -/
def geodeticToGeocentric (c : EllipsoidConverter α) (g : Geodetic α) : Except EllipsoidError (Vec3 α) :=
  let a := c.el.a
  let f := c.el.f
  let sp := Libm.sin g.phi
  let cp := Libm.cos g.phi
  let w := lit 1 -. f
  let w := w *. w
  let d := cp *. cp +. (w *. sp) *. sp
  if lit 0 <. d then
    let ac := a /. Arith.sqrt d
    let wac := w *. ac
    let r := (ac +. g.height) *. cp
    .ok ⟨r *. Libm.cos g.elong, r *. Libm.sin g.elong, (wac +. g.height) *. sp⟩
  else .error .badCoordinates

end EllipsoidConverter
end Verif
