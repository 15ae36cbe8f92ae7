import Verif.Model.Parse

/-!
Compares `parseF64` and `shortest` with another implementation.  Each line of the file given is a bit pattern (decimal) and two
texts separated by tabs: the shortest text of the number, and any text that must read to it.
This is a test of the model of the standard library, not part of any proof.  Usage: `tools/validate/text.sh`.
-/

open Verif

def toBits : F64 → Nat
  | .nan => 2047 <<< 52 + 1 <<< 51
  | .inf s => (2047 <<< 52) + if s then 2 ^ 63 else 0
  | .fin s n _ =>
    let m := if n < 2 ^ 52 then n else let e := n.log2 - 52; ((e + 1) <<< 52) + (n >>> e - 2 ^ 52)
    m + if s then 2 ^ 63 else 0

def ofBits (b : Nat) : F64 :=
  let s := b ≥ 2 ^ 63
  let b := b % 2 ^ 63
  let e := b >>> 52
  let f := b % 2 ^ 52
  if e == 2047 then (if f == 0 then .inf s else .nan)
  else .ofQuot s (if e == 0 then f else (f + 2 ^ 52) <<< (e - 1)) 1

def main (args : List String) : IO UInt32 := do
  let lines ← IO.FS.lines args.head!
  let mut bad := 0
  for l in lines do
    match l.splitOn "\t" with
    | [b, s, t] =>
      let x := ofBits b.toNat!
      let r := (parseF64 t.toList).map toBits
      let s' := String.ofList (shortest x)
      if s' != s || r != some b.toNat! then
        bad := bad + 1
        IO.println s!"{l}: {s'} {r}"
    | _ => throw (.userError l)
  IO.println s!"{lines.size} lines, {bad} differences"
  return if bad == 0 then 0 else 1
