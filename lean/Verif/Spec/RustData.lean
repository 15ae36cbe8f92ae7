import Verif.Spec.RustConst

/-!
# Reading a Rust constant that is a slice of tuples (specification)

The part of the grammar of Rust in which `test_data.rs` is written: besides what `Spec.RustConst` has, float literals without
exponent, tuples, and values of different types in one tuple.
-/

namespace Verif.Spec

/-- A float literal without exponent, perhaps after a minus, and its exact value. -/
def PlainLit (t : List Char) (q : ℚ) : Prop :=
  ∃ s i f : List Char, t = s ++ i ++ '.' :: f ∧ (s = [] ∨ s = ['-']) ∧ i ≠ [] ∧ Digits i ∧ Digits f ∧
    readDec (s ++ i ++ if f = [] then [] else '.' :: f) = some q

/-- A literal of type `f64` stands for the nearest number, `-` sets the sign bit. -/
def NumLit (t : List Char) (x : F64) : Prop :=
  ∃ q, (PlainLit t q ∨ ExpLit t q) ∧ Is x (RN q) ∧ ∃ n h, x = .fin (decide (t.head? = some '-')) n h

/-- Numbers, arrays and tuples. -/
inductive RVal where
  | num (x : F64)
  | arr (l : List RVal)
  | tup (l : List RVal)

/-- The text of a value with at most `n` levels of brackets. -/
def ValText : ℕ → List Char → RVal → Prop
  | 0, t, v => ∃ x, v = .num x ∧ NumLit t x
  | n + 1, t, v => (∃ x, v = .num x ∧ NumLit t x) ∨ (∃ r l, v = .arr l ∧ t = '[' :: (r ++ [']']) ∧ Items (ValText n) r l) ∨
      ∃ r l, v = .tup l ∧ 2 ≤ l.length ∧ t = '(' :: (r ++ [')']) ∧ Items (ValText n) r l

/-- Types. -/
inductive RTy where
  | real
  | array (n : ℕ) (t : RTy)
  | tuple (l : List RTy)

mutual
/-- The text of a type. -/
def RTy.text : RTy → List Char
  | .real => ['R']
  | .array n t => '[' :: (t.text ++ ';' :: (dec n ++ [']']))
  | .tuple l => '(' :: (RTy.texts l ++ [')'])
/-- Types with commas between them. -/
def RTy.texts : List RTy → List Char
  | [] => []
  | [t] => t.text
  | t :: l => t.text ++ ',' :: RTy.texts l
end

mutual
/-- The values of a type. -/
def RVal.Of : RVal → RTy → Prop
  | .num _, .real => True
  | .arr l, .array n t => l.length = n ∧ RVal.AllOf l t
  | .tup l, .tuple ts => RVal.EachOf l ts
  | _, _ => False
/-- All of one type. -/
def RVal.AllOf : List RVal → RTy → Prop
  | [], _ => True
  | v :: l, t => v.Of t ∧ RVal.AllOf l t
/-- Each of its type. -/
def RVal.EachOf : List RVal → List RTy → Prop
  | [], [] => True
  | v :: l, t :: ts => v.Of t ∧ RVal.EachOf l ts
  | _, _ => False
end

/-- `pub const name : &[type] = &[...];` after blanks, with values of that type. -/
def SliceText (name : List Char) (ty : RTy) (t : List Char) (vs : List RVal) : Prop :=
  (∃ b r b', Blank b ∧ Blank b' ∧ t = b ++ ("pub const ".toList ++ name ++ " : &[".toList ++ ty.text ++ "] = &[".toList ++ (r ++ ']' :: ';' :: b')) ∧
    Items (ValText 4) r vs) ∧ ∀ v ∈ vs, v.Of ty

end Verif.Spec
