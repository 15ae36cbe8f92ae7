import Verif.Spec.Numeral

/-!
# The texts of floating point numbers

The grammar in the documentation of `f64::from_str`.
-/

namespace Verif.Spec

def Digits (l : List Char) : Prop := ∀ c ∈ l, (digit? c).isSome = true

def SignText (l : List Char) : Prop := l = [] ∨ l = ['+'] ∨ l = ['-']

/-- `Exp ::= 'e' Sign? Digit+`, or nothing. -/
def ExpText (l : List Char) : Prop :=
  l = [] ∨ ∃ (c : Char) (s d : List Char), l = c :: (s ++ d) ∧ (c = 'e' ∨ c = 'E') ∧ SignText s ∧ d ≠ [] ∧ Digits d

/-- `Number ::= ( Digit+ | Digit+ '.' Digit* | Digit* '.' Digit+ ) Exp?`. -/
def NumberText (l : List Char) : Prop :=
  ∃ i f e : List Char, Digits i ∧ Digits f ∧ ExpText e ∧
    (i ≠ [] ∧ l = i ++ e ∨ (i ≠ [] ∨ f ≠ []) ∧ l = i ++ '.' :: f ++ e)

/-- `Float ::= Sign? ( 'inf' | 'infinity' | 'nan' | Number )`, the words in any case. -/
def FloatText (l : List Char) : Prop :=
  ∃ s r : List Char, SignText s ∧ l = s ++ r ∧ (NumberText r ∨
    r.map Char.toLower = "inf".toList ∨ r.map Char.toLower = "infinity".toList ∨ r.map Char.toLower = "nan".toList)

end Verif.Spec
