import Verif.Model.Common

/-!
# Model of `crates/tofas/src/fundargs.rs`

`%` and `*` have the same precedence and associate to the left, so `c + t*(...) % TURNAS` is
`c + ((t*(...)) % TURNAS)`.
-/

namespace Verif
open Arith
variable {α : Type} [Arith α]

/-- The common shape of `l03` ... `om03`. -/
def fundarg (c0 c1 c2 c3 c4 : ℚ) (t : α) : α :=
  (lit c0 +. (t *. (lit c1 +. t *. (lit c2 +. t *. (lit c3 +. t *. lit c4)))) %. TURNAS) *. AS2R

/-- fundargs.rs:5-11. -/
def l03 (t : α) : α := fundarg 485868.249036 1717915923.2178 31.8792 0.051635 (-0.00024470) t
/-- fundargs.rs:15-21. -/
def lp03 (t : α) : α := fundarg 1287104.793048 129596581.0481 (-0.5532) 0.000136 (-0.00001149) t
/-- fundargs.rs:26-32. -/
def f03 (t : α) : α := fundarg 335779.526232 1739527262.8478 (-12.7512) (-0.001037) 0.00000417 t
/-- fundargs.rs:36-42. -/
def d03 (t : α) : α := fundarg 1072260.703692 1602961601.2090 (-6.3706) 0.006593 (-0.00003169) t
/-- fundargs.rs:46-52. -/
def om03 (t : α) : α := fundarg 450160.398036 (-6962890.5431) 7.4722 0.007702 (-0.00005939) t
/-- fundargs.rs:56-58. -/
def ve03 (t : α) : α := (lit 3.176146697 +. lit 1021.3285546211 *. t) %. TWO_PI
/-- fundargs.rs:62-64. -/
def e03 (t : α) : α := (lit 1.753470314 +. lit 628.3075849991 *. t) %. TWO_PI
/-- fundargs.rs:67-69. -/
def pa03 (t : α) : α := (lit 0.024381750 +. lit 0.00000538691 *. t) *. t

end Verif
