import Verif.Model.Earth
import Verif.Model.Locator

/-!
# Model of `crates/tofas/src/frames.rs`
-/

namespace Verif
open Arith

/-- `[i8;5]`. -/
structure Nal where
  l : ℤ
  lp : ℤ
  f : ℤ
  d : ℤ
  om : ℤ
  deriving DecidableEq

/-- `[R;6]`: all entries are integers. -/
structure Cls where
  c0 : ℤ
  c1 : ℤ
  c2 : ℤ
  c3 : ℤ
  c4 : ℤ
  c5 : ℤ
  deriving DecidableEq

/-- frames.rs:92-170. -/
def NALS : List Nal := [
  ⟨0, 0, 0, 0, 1⟩,
  ⟨0, 0, 2, -2, 2⟩,
  ⟨0, 0, 2, 0, 2⟩,
  ⟨0, 0, 0, 0, 2⟩,
  ⟨0, 1, 0, 0, 0⟩,
  ⟨0, 1, 2, -2, 2⟩,
  ⟨1, 0, 0, 0, 0⟩,
  ⟨0, 0, 2, 0, 1⟩,
  ⟨1, 0, 2, 0, 2⟩,
  ⟨0, -1, 2, -2, 2⟩,
  ⟨0, 0, 2, -2, 1⟩,
  ⟨-1, 0, 2, 0, 2⟩,
  ⟨-1, 0, 0, 2, 0⟩,
  ⟨1, 0, 0, 0, 1⟩,
  ⟨-1, 0, 0, 0, 1⟩,
  ⟨-1, 0, 2, 2, 2⟩,
  ⟨1, 0, 2, 0, 1⟩,
  ⟨-2, 0, 2, 0, 1⟩,
  ⟨0, 0, 0, 2, 0⟩,
  ⟨0, 0, 2, 2, 2⟩,
  ⟨0, -2, 2, -2, 2⟩,
  ⟨-2, 0, 0, 2, 0⟩,
  ⟨2, 0, 2, 0, 2⟩,
  ⟨1, 0, 2, -2, 2⟩,
  ⟨-1, 0, 2, 0, 1⟩,
  ⟨2, 0, 0, 0, 0⟩,
  ⟨0, 0, 2, 0, 0⟩,
  ⟨0, 1, 0, 0, 1⟩,
  ⟨-1, 0, 0, 2, 1⟩,
  ⟨0, 2, 2, -2, 2⟩,
  ⟨0, 0, -2, 2, 0⟩,
  ⟨1, 0, 0, -2, 1⟩,
  ⟨0, -1, 0, 0, 1⟩,
  ⟨-1, 0, 2, 2, 1⟩,
  ⟨0, 2, 0, 0, 0⟩,
  ⟨1, 0, 2, 2, 2⟩,
  ⟨-2, 0, 2, 0, 0⟩,
  ⟨0, 1, 2, 0, 2⟩,
  ⟨0, 0, 2, 2, 1⟩,
  ⟨0, -1, 2, 0, 2⟩,
  ⟨0, 0, 0, 2, 1⟩,
  ⟨1, 0, 2, -2, 1⟩,
  ⟨2, 0, 2, -2, 2⟩,
  ⟨-2, 0, 0, 2, 1⟩,
  ⟨2, 0, 2, 0, 1⟩,
  ⟨0, -1, 2, -2, 1⟩,
  ⟨0, 0, 0, -2, 1⟩,
  ⟨-1, -1, 0, 2, 0⟩,
  ⟨2, 0, 0, -2, 1⟩,
  ⟨1, 0, 0, 2, 0⟩,
  ⟨0, 1, 2, -2, 1⟩,
  ⟨1, -1, 0, 0, 0⟩,
  ⟨-2, 0, 2, 0, 2⟩,
  ⟨3, 0, 2, 0, 2⟩,
  ⟨0, -1, 0, 2, 0⟩,
  ⟨1, -1, 2, 0, 2⟩,
  ⟨0, 0, 0, 1, 0⟩,
  ⟨-1, -1, 2, 2, 2⟩,
  ⟨-1, 0, 2, 0, 0⟩,
  ⟨0, -1, 2, 2, 2⟩,
  ⟨-2, 0, 0, 0, 1⟩,
  ⟨1, 1, 2, 0, 2⟩,
  ⟨2, 0, 0, 0, 1⟩,
  ⟨-1, 1, 0, 1, 0⟩,
  ⟨1, 1, 0, 0, 0⟩,
  ⟨1, 0, 2, 0, 0⟩,
  ⟨-1, 0, 2, -2, 1⟩,
  ⟨1, 0, 0, 0, 2⟩,
  ⟨-1, 0, 0, 1, 0⟩,
  ⟨0, 0, 2, 1, 2⟩,
  ⟨-1, 0, 2, 4, 2⟩,
  ⟨-1, 1, 0, 1, 1⟩,
  ⟨0, -2, 2, -2, 1⟩,
  ⟨1, 0, 2, 2, 1⟩,
  ⟨-2, 0, 2, 2, 2⟩,
  ⟨-1, 0, 0, 0, 2⟩,
  ⟨1, 1, 2, -2, 2⟩]

/-- frames.rs:172-250. -/
def CLS : List Cls := [
  ⟨-172064161, -174666, 33386, 92052331, 9086, 15377⟩,
  ⟨-13170906, -1675, -13696, 5730336, -3015, -4587⟩,
  ⟨-2276413, -234, 2796, 978459, -485, 1374⟩,
  ⟨2074554, 207, -698, -897492, 470, -291⟩,
  ⟨1475877, -3633, 11817, 73871, -184, -1924⟩,
  ⟨-516821, 1226, -524, 224386, -677, -174⟩,
  ⟨711159, 73, -872, -6750, 0, 358⟩,
  ⟨-387298, -367, 380, 200728, 18, 318⟩,
  ⟨-301461, -36, 816, 129025, -63, 367⟩,
  ⟨215829, -494, 111, -95929, 299, 132⟩,
  ⟨128227, 137, 181, -68982, -9, 39⟩,
  ⟨123457, 11, 19, -53311, 32, -4⟩,
  ⟨156994, 10, -168, -1235, 0, 82⟩,
  ⟨63110, 63, 27, -33228, 0, -9⟩,
  ⟨-57976, -63, -189, 31429, 0, -75⟩,
  ⟨-59641, -11, 149, 25543, -11, 66⟩,
  ⟨-51613, -42, 129, 26366, 0, 78⟩,
  ⟨45893, 50, 31, -24236, -10, 20⟩,
  ⟨63384, 11, -150, -1220, 0, 29⟩,
  ⟨-38571, -1, 158, 16452, -11, 68⟩,
  ⟨32481, 0, 0, -13870, 0, 0⟩,
  ⟨-47722, 0, -18, 477, 0, -25⟩,
  ⟨-31046, -1, 131, 13238, -11, 59⟩,
  ⟨28593, 0, -1, -12338, 10, -3⟩,
  ⟨20441, 21, 10, -10758, 0, -3⟩,
  ⟨29243, 0, -74, -609, 0, 13⟩,
  ⟨25887, 0, -66, -550, 0, 11⟩,
  ⟨-14053, -25, 79, 8551, -2, -45⟩,
  ⟨15164, 10, 11, -8001, 0, -1⟩,
  ⟨-15794, 72, -16, 6850, -42, -5⟩,
  ⟨21783, 0, 13, -167, 0, 13⟩,
  ⟨-12873, -10, -37, 6953, 0, -14⟩,
  ⟨-12654, 11, 63, 6415, 0, 26⟩,
  ⟨-10204, 0, 25, 5222, 0, 15⟩,
  ⟨16707, -85, -10, 168, -1, 10⟩,
  ⟨-7691, 0, 44, 3268, 0, 19⟩,
  ⟨-11024, 0, -14, 104, 0, 2⟩,
  ⟨7566, -21, -11, -3250, 0, -5⟩,
  ⟨-6637, -11, 25, 3353, 0, 14⟩,
  ⟨-7141, 21, 8, 3070, 0, 4⟩,
  ⟨-6302, -11, 2, 3272, 0, 4⟩,
  ⟨5800, 10, 2, -3045, 0, -1⟩,
  ⟨6443, 0, -7, -2768, 0, -4⟩,
  ⟨-5774, -11, -15, 3041, 0, -5⟩,
  ⟨-5350, 0, 21, 2695, 0, 12⟩,
  ⟨-4752, -11, -3, 2719, 0, -3⟩,
  ⟨-4940, -11, -21, 2720, 0, -9⟩,
  ⟨7350, 0, -8, -51, 0, 4⟩,
  ⟨4065, 0, 6, -2206, 0, 1⟩,
  ⟨6579, 0, -24, -199, 0, 2⟩,
  ⟨3579, 0, 5, -1900, 0, 1⟩,
  ⟨4725, 0, -6, -41, 0, 3⟩,
  ⟨-3075, 0, -2, 1313, 0, -1⟩,
  ⟨-2904, 0, 15, 1233, 0, 7⟩,
  ⟨4348, 0, -10, -81, 0, 2⟩,
  ⟨-2878, 0, 8, 1232, 0, 4⟩,
  ⟨-4230, 0, 5, -20, 0, -2⟩,
  ⟨-2819, 0, 7, 1207, 0, 3⟩,
  ⟨-4056, 0, 5, 40, 0, -2⟩,
  ⟨-2647, 0, 11, 1129, 0, 5⟩,
  ⟨-2294, 0, -10, 1266, 0, -4⟩,
  ⟨2481, 0, -7, -1062, 0, -3⟩,
  ⟨2179, 0, -2, -1129, 0, -2⟩,
  ⟨3276, 0, 1, -9, 0, 0⟩,
  ⟨-3389, 0, 5, 35, 0, -2⟩,
  ⟨3339, 0, -13, -107, 0, 1⟩,
  ⟨-1987, 0, -6, 1073, 0, -2⟩,
  ⟨-1981, 0, 0, 854, 0, 0⟩,
  ⟨4026, 0, -353, -553, 0, -139⟩,
  ⟨1660, 0, -5, -710, 0, -2⟩,
  ⟨-1521, 0, 9, 647, 0, 4⟩,
  ⟨1314, 0, 0, -700, 0, 0⟩,
  ⟨-1283, 0, 0, 672, 0, 0⟩,
  ⟨-1331, 0, 8, 663, 0, 4⟩,
  ⟨1383, 0, -2, -594, 0, -2⟩,
  ⟨1405, 0, 4, -610, 0, 2⟩,
  ⟨1290, 0, 0, -556, 0, 0⟩]

/-- frames.rs:252. -/
def NLS : ℕ := 77

theorem nals_cls_lengths : NALS.length = NLS ∧ CLS.length = NLS := by decide

variable {α : Type} [Arith α]

/-- frames.rs:89. `- 0.135 * MAS2R` is `(-0.135) * MAS2R`. -/
def DPPLAN : α := Arith.neg (lit 0.135) *. MAS2R
/-- frames.rs:90. -/
def DEPLAN : α := lit 0.388 *. MAS2R
/-- frames.rs:253. -/
def U2R : α := AS2R /. lit 1e7

/-- The Julian centuries since J2000.0 computed at the start of each routine. -/
def centuries (tt : α × α) : α := ((tt.1 -. DJ00) +. tt.2) /. DJC

/-- frames.rs:269-273. -/
def nutArg (el elp f d om : α) (n : Nal) : α :=
  ((((ofInt n.l *. el +. ofInt n.lp *. elp) +. ofInt n.f *. f) +. ofInt n.d *. d) +. ofInt n.om *. om)
    %. TWO_PI

/-- The `f64` literal `z.0`. -/
def flt (z : ℤ) : α := lit (z : ℚ)

/-- frames.rs:256-291.  `NALS` and `CLS` both have `NLS` rows (`nals_cls_lengths`), so no index is out of
bounds and `zip` loses nothing. -/
def nutation [Libm α] (tt : α × α) : α × α :=
  let t := centuries tt
  let el := ((lit 485868.249036 +. lit 1717915923.2178 *. t) %. TURNAS) *. AS2R
  let elp := ((lit 1287104.79305 +. lit 129596581.0481 *. t) %. TURNAS) *. AS2R
  let f := ((lit 335779.526232 +. lit 1739527262.8478 *. t) %. TURNAS) *. AS2R
  let d := ((lit 1072260.70369 +. lit 1602961601.2090 *. t) %. TURNAS) *. AS2R
  let om := ((lit 450160.398036 -. lit 6962890.5431 *. t) %. TURNAS) *. AS2R
  let dpde := (NALS.zip CLS).reverse.foldl (fun (acc : α × α) p =>
    let arg := nutArg el elp f d om p.1
    let sarg := Libm.sin arg
    let carg := Libm.cos arg
    (acc.1 +. ((flt p.2.c0 +. flt p.2.c1 *. t) *. sarg +. flt p.2.c2 *. carg),
     acc.2 +. ((flt p.2.c3 +. flt p.2.c4 *. t) *. carg +. flt p.2.c5 *. sarg))) (lit 0, lit 0)
  let dpsils := dpde.1 *. U2R
  let depsls := dpde.2 *. U2R
  (dpsils +. DPPLAN, depsls +. DEPLAN)

/-- frames.rs:294-301. -/
def precessionRate (tt : α × α) : α × α :=
  let t := centuries tt
  ((lit (-0.29965) *. AS2R) *. t, (lit (-0.02524) *. AS2R) *. t)

/-- frames.rs:304-310. -/
def meanObliquity (tt : α × α) : α :=
  let t := centuries tt
  AS2R *. (lit 84381.448 +. (lit (-46.8150) +. (lit (-0.00059) +. lit 0.001813 *. t) *. t) *. t)

/-- frames.rs:318. -/
def EPS0 : α := lit 84381.448 *. AS2R

/-- frames.rs:348-353. -/
def frameBias : α × α × α :=
  (lit (-0.041775) *. AS2R, lit (-0.0068192) *. AS2R, lit (-0.0146) *. AS2R)

variable [Libm α]

/-- frames.rs:314-345: `(RB, RP, RBP)`. -/
def biasAndPrecession (tt : α × α) : Mat3 α × Mat3 α × Mat3 α :=
  let t := centuries tt
  let fb : α × α × α := frameBias
  let dpsibi := fb.1
  let depsbi := fb.2.1
  let dra0 := fb.2.2
  let psia77 := ((lit 5038.7784 +. (lit (-1.07259) +. lit (-0.001147) *. t) *. t) *. t) *. AS2R
  let oma77 := EPS0 +. ((((lit 0.05127 +. lit (-0.007726) *. t) *. t) *. t) *. AS2R)
  let chia := ((lit 10.5526 +. (lit (-2.38064) +. lit (-0.001125) *. t) *. t) *. t) *. AS2R
  let pr := precessionRate tt
  let psia := psia77 +. pr.1
  let oma := oma77 +. pr.2
  let rb := ((Mat3.identity.compose (Mat3.rotation 0 (Arith.neg depsbi))).compose
    (Mat3.rotation 1 (dpsibi *. Libm.sin EPS0))).compose (Mat3.rotation 2 dra0)
  let rp := (((Mat3.identity.compose (Mat3.rotation 2 chia)).compose
    (Mat3.rotation 0 (Arith.neg oma))).compose (Mat3.rotation 2 (Arith.neg psia))).compose
    (Mat3.rotation 0 EPS0)
  (rb, rp, rp.compose rb)

/-- frames.rs:356-361. -/
def nutationMatrix (epsa dpsi deps : α) : Mat3 α :=
  ((Mat3.identity.compose (Mat3.rotation 0 (Arith.neg (epsa +. deps)))).compose
    (Mat3.rotation 2 (Arith.neg dpsi))).compose (Mat3.rotation 0 epsa)

/-- frames.rs:37-59. -/
structure PrecessionNutation (α : Type) where
  dpsi : α
  epsa : α
  rb : Mat3 α
  rp : Mat3 α
  rbp : Mat3 α
  rn : Mat3 α
  rbpn : Mat3 α

/-- frames.rs:71-86. -/
def PrecessionNutation.fromTTWithNutation (tt : α × α) (dpsi deps : α) : PrecessionNutation α :=
  let depspr := (precessionRate tt).2
  let epsa := meanObliquity tt +. depspr
  let m := biasAndPrecession tt
  let rn := nutationMatrix epsa dpsi deps
  { dpsi := dpsi, epsa := epsa, rb := m.1, rp := m.2.1, rbp := m.2.2, rn := rn
    rbpn := rn.compose m.2.2 }

/-- frames.rs:61-67. -/
def PrecessionNutation.fromTT (tt : α × α) : PrecessionNutation α :=
  let n := nutation tt
  PrecessionNutation.fromTTWithNutation tt n.1 n.2

/-- frames.rs:32-35. -/
def precessionNutation (tt : α × α) : Mat3 α := (PrecessionNutation.fromTT tt).rbpn

omit [Libm α] in
/-- frames.rs:392-394. -/
def xyFromBpn (m : Mat3 α) : α × α := (m.get 2 0, m.get 2 1)

/-- frames.rs:376-389. -/
def celestialToIntermediateFromXys (x y s : α) : Mat3 α :=
  let r2 := x *. x +. y *. y
  let e := if lit 0 <. r2 then Libm.atan2 y x else lit 0
  let d := Libm.atan (Arith.sqrt (r2 /. (lit 1 -. r2)))
  ((Mat3.identity.compose (Mat3.rotation 2 (Arith.neg (e +. s)))).compose
    (Mat3.rotation 1 d)).compose (Mat3.rotation 2 e)

/-- frames.rs:370-373. -/
def celestialToIntermediateXY (tt : α × α) (x y : α) : Mat3 α :=
  celestialToIntermediateFromXys x y (cio tt x y)

/-- frames.rs:364-367. -/
def celestialToIntermediateBpn (tt : α × α) (rbpn : Mat3 α) : Mat3 α :=
  let xy := xyFromBpn rbpn
  celestialToIntermediateXY tt xy.1 xy.2

/-- frames.rs:23-26. -/
def celestialToIntermediate (tt : α × α) : Mat3 α :=
  celestialToIntermediateBpn tt (precessionNutation tt)

/-- frames.rs:397-399. -/
def celestialToTerrestrialFromCio (rc2i : Mat3 α) (era : α) (rpom : Mat3 α) : Mat3 α :=
  rpom.compose ((Mat3.rotation 2 era).compose rc2i)

/-- frames.rs:12-17. -/
def celestialToTerrestrial (tt ut1 : α × α) (xp yp : α) : Mat3 α :=
  let rc2i := celestialToIntermediate tt
  let era := rotationAngle ut1
  let rpom := polarMotionMatrix xp yp (lit 0)
  celestialToTerrestrialFromCio rc2i era rpom

end Verif
