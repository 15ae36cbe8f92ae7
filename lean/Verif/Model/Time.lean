import Verif.Arith

/-!
# Model of `crates/tofas/src/time.rs`

The newtypes `UT1`, `TT`, `TAI`, `UTC`, `TDB` (time.rs:6-19) are wrappers around a pair of floats;
the model passes the pair.
-/

namespace Verif
open Arith

variable {α : Type} [Arith α]

/-- time.rs:21. -/
def D2S : α := lit 86400
/-- time.rs:22. -/
def DJY : α := lit 365.25
/-- time.rs:23. -/
def DJ00 : α := lit 2451545
/-- time.rs:24. -/
def DJC : α := lit 36525
/-- time.rs:72. -/
def DTAT : α := lit 32.184 /. lit 86400

/-- time.rs:30-39. `a > b` is `b <. a`. -/
def TT.fromUT1 (u : α × α) (dt : α) : α × α :=
  let dtd := dt /. D2S
  if u.2 <. u.1 then (u.1, u.2 +. dtd) else (u.1 +. dtd, u.2)

/-- time.rs:41-44, 48-51, 66-69, 121-124: all four `total` methods have this body. -/
def total (t : α × α) : α := t.1 +. t.2

/-- time.rs:55-64. -/
def TAI.fromUTC (u : α × α) (dat : α) : α × α :=
  let da := dat /. lit 86400
  if u.2 <. u.1 then (u.1, u.2 +. da) else (u.1 +. da, u.2)

/-- time.rs:74-84. -/
def TT.fromTAI (t : α × α) : α × α :=
  if t.2 <. t.1 then (t.1, t.2 +. DTAT) else (t.1 +. DTAT, t.2)

/-- time.rs:91-100. -/
def TDB.fromTT (t : α × α) (dtr : α) : α × α :=
  let dtrd := dtr /. D2S
  if t.2 <. t.1 then (t.1, t.2 +. dtrd) else (t.1 +. dtrd, t.2)

/-- time.rs:110-119. -/
def UT1.fromTT (t : α × α) (dt : α) : α × α :=
  let dtd := dt /. D2S
  if t.2 <. t.1 then (t.1, t.2 -. dtd) else (t.1 -. dtd, t.2)

end Verif
