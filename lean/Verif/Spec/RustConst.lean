import Verif.Spec.FloatText
import Verif.Float.Is
import Verif.Model.Display

/-!
# Reading a Rust constant that is an array of floats (specification)

The part of the grammar of Rust in which `epv00_data.rs` is written: blanks and line comments, float literals with an
exponent and an optional minus, array expressions with an optional comma after the last element, constant items.
-/

namespace Verif.Spec

/-- Spaces, newlines and line comments. -/
inductive Blank : List Char → Prop
  | nil : Blank []
  | space {c : Char} {l : List Char} : c = ' ' ∨ c = '\n' → Blank l → Blank (c :: l)
  | comment {t l : List Char} : '\n' ∉ t → Blank l → Blank ('/' :: '/' :: (t ++ '\n' :: l))

/-- Elements separated by commas, an optional one at the end. -/
inductive Items {α : Type} (E : List Char → α → Prop) : List Char → List α → Prop
  | nil {b : List Char} : Blank b → Items E b []
  | last {b t b' : List Char} {x : α} : Blank b → E t x → Blank b' → Items E (b ++ t ++ b') [x]
  | cons {b t b' r : List Char} {x : α} {xs : List α} : Blank b → E t x → Blank b' → Items E r xs →
      Items E (b ++ t ++ b' ++ ',' :: r) (x :: xs)

/-- An array expression. -/
def ArrayText {α : Type} (E : List Char → α → Prop) (t : List Char) (xs : List α) : Prop :=
  ∃ r, t = '[' :: (r ++ [']']) ∧ Items E r xs

/-- A float literal with an exponent, perhaps after a minus, and its exact value. -/
def ExpLit (t : List Char) (q : ℚ) : Prop :=
  ∃ s i f g e : List Char, t = s ++ i ++ '.' :: f ++ 'E' :: (g ++ e) ∧ (s = [] ∨ s = ['-']) ∧ i ≠ [] ∧ Digits i ∧ f ≠ [] ∧ Digits f ∧
    SignText g ∧ e ≠ [] ∧ Digits e ∧
    ∃ (a : ℚ) (k : ℤ), readDec (s ++ i ++ '.' :: f) = some a ∧ readDec (g ++ e) = some (k : ℚ) ∧ q = a * 10 ^ k

/-- Such a literal of type `f64` stands for the nearest number, `-` sets the sign bit. -/
def FloatLit (t : List Char) (x : F64) : Prop :=
  ∃ q, ExpLit t q ∧ Is x (RN q) ∧ ∃ n h, x = .fin (decide (t.head? = some '-')) n h

/-- `pub const name : [[[R;o];n];m] = ...;` and a newline, with elements of these numbers. -/
def ConstText (name : List Char) (m n o : ℕ) (t : List Char) (x : List (List (List F64))) : Prop :=
  (∃ r, t = "pub const ".toList ++ name ++ " : [[[R;".toList ++ dec o ++ "];".toList ++ dec n ++ "];".toList ++ dec m ++ "] = ".toList ++ r ++ ";\n".toList ∧
    ArrayText (ArrayText (ArrayText FloatLit)) r x) ∧
  x.length = m ∧ ∀ y ∈ x, y.length = n ∧ ∀ z ∈ y, z.length = o

end Verif.Spec
