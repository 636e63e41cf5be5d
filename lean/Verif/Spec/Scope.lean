import Verif.Spec.Policy
/-!
# The words of a `scope`
-/

namespace Oidfed.Spec

/-- The non-empty pieces between the spaces of a string. -/
def wordsOf (s : String) : List String := ((s.split ' ').toList.map (·.copy)).filter (· ≠ "")

/-- Strings without spaces in them. -/
def NoSpaces (ws : List String) : Prop := ∀ w ∈ ws, ' ' ∉ w.toList

/-- A JSON array of strings, as a policy operator has it. -/
def wordList (ws : List String) : Val := .slice .any false (ws.map Val.str)

end Oidfed.Spec
