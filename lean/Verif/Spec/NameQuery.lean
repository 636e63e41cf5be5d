import Verif.Model.NameQuery
/-!
# What queries for display names find
-/

namespace Oidfed.Spec

/-- The text occurs in the other one, in one piece. -/
def Within (s t : List Char) : Prop := ∃ pre post, t = pre ++ s ++ post

/-- The characters of the text occur in the other one in this order, possibly with others between them. -/
inductive InOrder : List Char → List Char → Prop
  | nil : InOrder [] []
  | skip {s t : List Char} (c : Char) : InOrder s t → InOrder s (c :: t)
  | take {s t : List Char} (c : Char) : InOrder s t → InOrder (c :: s) (c :: t)

/-- What it means that a name matches in a mode. -/
def Matches (T : TextRules) (mode : String) (input name : String) : Prop :=
  (mode = "fuzzy" ∧ InOrder (T.norm input.toList) (T.norm name.toList)) ∨
  (mode = "exact-case-sensitive" ∧ name = input) ∨
  (mode = "exact-case-insensitive" ∧ name.toList.map T.fold = input.toList.map T.fold) ∨
  (mode = "substring-case-sensitive" ∧ Within input.toList name.toList) ∨
  (mode = "substring-case-insensitive" ∧ Within (input.toList.map T.lower) (name.toList.map T.lower))

/-- Texts are transformed character by character, and characters that differ only in case are transformed to the same. -/
structure CharByChar (T : TextRules) : Prop where
  norm : ∃ g : Char → List Char, (∀ l, T.norm l = l.flatMap g) ∧ (∀ c, g (T.lower c) = g c) ∧ ∀ c, g (T.fold c) = g c

end Oidfed.Spec
