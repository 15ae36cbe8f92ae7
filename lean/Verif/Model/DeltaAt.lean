import Verif.Model.Calendar

/-!
# Model of `crates/tofas/src/delta_at.rs`
-/

namespace Verif
open Arith

/-- delta_at.rs:8-14.  `dat` and `drift` are decimal literals, kept as exact rationals here and
converted by `lit` where they are used (`Arith.lit` is the rounding of a decimal literal). -/
structure DatData where
  year : ℤ
  month : ℤ
  dat : ℚ
  drift : Option (ℚ × ℚ)
  deriving DecidableEq

/-- delta_at.rs:16-59. -/
def DAT_DATA : List DatData := [
  ⟨1960, 1, 1.417818, some (37300.0, 0.001296)⟩,
  ⟨1961, 1, 1.422818, some (37300.0, 0.001296)⟩,
  ⟨1961, 8, 1.372818, some (37300.0, 0.001296)⟩,
  ⟨1962, 1, 1.845858, some (37665.0, 0.0011232)⟩,
  ⟨1963, 11, 1.945858, some (37665.0, 0.0011232)⟩,
  ⟨1964, 1, 3.240130, some (38761.0, 0.001296)⟩,
  ⟨1964, 4, 3.340130, some (38761.0, 0.001296)⟩,
  ⟨1964, 9, 3.440130, some (38761.0, 0.001296)⟩,
  ⟨1965, 1, 3.540130, some (38761.0, 0.001296)⟩,
  ⟨1965, 3, 3.640130, some (38761.0, 0.001296)⟩,
  ⟨1965, 7, 3.740130, some (38761.0, 0.001296)⟩,
  ⟨1965, 9, 3.840130, some (38761.0, 0.001296)⟩,
  ⟨1966, 1, 4.313170, some (39126.0, 0.002592)⟩,
  ⟨1968, 2, 4.213170, some (39126.0, 0.002592)⟩,
  ⟨1972, 1, 10.0, none⟩,
  ⟨1972, 7, 11.0, none⟩,
  ⟨1973, 1, 12.0, none⟩,
  ⟨1974, 1, 13.0, none⟩,
  ⟨1975, 1, 14.0, none⟩,
  ⟨1976, 1, 15.0, none⟩,
  ⟨1977, 1, 16.0, none⟩,
  ⟨1978, 1, 17.0, none⟩,
  ⟨1979, 1, 18.0, none⟩,
  ⟨1980, 1, 19.0, none⟩,
  ⟨1981, 7, 20.0, none⟩,
  ⟨1982, 7, 21.0, none⟩,
  ⟨1983, 7, 22.0, none⟩,
  ⟨1985, 7, 23.0, none⟩,
  ⟨1988, 1, 24.0, none⟩,
  ⟨1990, 1, 25.0, none⟩,
  ⟨1991, 1, 26.0, none⟩,
  ⟨1992, 7, 27.0, none⟩,
  ⟨1993, 7, 28.0, none⟩,
  ⟨1994, 7, 29.0, none⟩,
  ⟨1996, 1, 30.0, none⟩,
  ⟨1997, 7, 31.0, none⟩,
  ⟨1999, 1, 32.0, none⟩,
  ⟨2006, 1, 33.0, none⟩,
  ⟨2009, 1, 34.0, none⟩,
  ⟨2012, 7, 35.0, none⟩,
  ⟨2015, 7, 36.0, none⟩,
  ⟨2017, 1, 37.0, none⟩
]

/-- delta_at.rs:61-62. -/
inductive DeltaAtError where
  | badFract
  deriving DecidableEq, Repr

/-- `Iterator::rposition`: index of the last element satisfying `q`. -/
def rposition {β : Type} (q : β → Bool) (l : List β) : Option ℕ :=
  (List.range l.length).reverse.find? fun i => (l[i]?).any q

/-- delta_at.rs:82-90: the row selected for the month number `m = 12*year+month`.
`12*year + month` over the table itself cannot overflow.  `getD` is never out of range: see
`rposition_lt`. -/
def datRow (m : ℤ) : DatData :=
  DAT_DATA.getD ((rposition (fun e : DatData => decide (12 * e.year + e.month < m)) DAT_DATA).getD 0)
    ⟨0, 0, 0, none⟩

variable {α : Type} [Arith α]

/-- delta_at.rs:70-100. -/
def deltaAt (p : Profile) (d : GregorianDate) (fd : α) :
    Rust (Except DeltaAtError (Option α)) :=
  if fd <. lit 0 || lit 1 <. fd then .ok (.error .badFract)
  else if d.year < (DAT_DATA[0]'(by decide)).year then .ok (.ok none)
  else do
    let m ← I32.add p (← I32.mul p 12 d.year) d.month
    let row := datRow m
    match row.drift with
    | none => return .ok (some (lit row.dat))
    | some (d0, d1) => do
      let (_, djm) ← GregorianDate.toJulian (α := α) p d
      return .ok (some (lit row.dat +. ((djm +. fd) -. lit d0) *. lit d1))

end Verif
