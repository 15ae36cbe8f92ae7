import Mathlib.Data.List.Nodup

/-!
# Command lines made of options

An item is an option with its value, or a flag.  Nothing here refers to how a program looks for its arguments.
-/

namespace Verif.Spec

/-- An option name, and its value unless it is a flag. -/
abbrev Item := List Char × Option (List Char)

/-- The arguments of a list of items. -/
def flat (items : List Item) : List (List Char) := items.flatMap fun it => it.1 :: it.2.toList

/-- No option is given twice, and no value is the name of an option of the program. -/
def WellFormed (options : List (List Char)) (items : List Item) : Prop :=
  (items.map Prod.fst).Nodup ∧ ∀ it ∈ items, ∀ v, it.2 = some v → v ∉ options

/-- The options of the program have values. -/
def Valued (options : List (List Char)) (items : List Item) : Prop := ∀ it ∈ items, it.1 ∈ options → it.2 ≠ none

/-- The value given for an option, read by `parse`; `none`: the option is absent. -/
def Gives {β : Type} (items : List Item) (key : List Char) (parse : List Char → Option β) : Option β → Prop
  | none => ∀ it ∈ items, it.1 ≠ key
  | some y => ∃ t, (key, some t) ∈ items ∧ parse t = some y

end Verif.Spec
