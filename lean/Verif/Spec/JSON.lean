import Verif.Model.JSONObject
/-!
# What is said about JSON objects
-/

namespace Oidfed.Spec

/-- `v` is the value of the last member named `k`: the value a reader of the object sees. -/
def LastMember (l : JObj) (k : String) (v : JV) : Prop :=
  ∃ pre post, l = pre ++ (k, v) :: post ∧ ∀ kv ∈ post, kv.1 ≠ k

/-- `l` has exactly one member named `k`, and its value is `v`. -/
def OnlyMember (l : JObj) (k : String) (v : JV) : Prop :=
  ∃ pre post, l = pre ++ (k, v) :: post ∧ (∀ kv ∈ pre, kv.1 ≠ k) ∧ ∀ kv ∈ post, kv.1 ≠ k

/-- Names that differ even if case (in the sense of `encoding/json`) is ignored. -/
def Apart (a b : String) : Prop := foldName a ≠ foldName b

/-- The characters that `encoding/json` takes for the same letter. -/
def letters : List (List Char) :=
  [['a', 'A'], ['b', 'B'], ['c', 'C'], ['d', 'D'], ['e', 'E'], ['f', 'F'], ['g', 'G'], ['h', 'H'], ['i', 'I'], ['j', 'J'], ['k', 'K', '\u212A'], ['l', 'L'],
   ['m', 'M'], ['n', 'N'], ['o', 'O'], ['p', 'P'], ['q', 'Q'], ['r', 'R'], ['s', 'S', '\u017F'], ['t', 'T'], ['u', 'U'], ['v', 'V'], ['w', 'W'], ['x', 'X'],
   ['y', 'Y'], ['z', 'Z']]

/-- The same character, or the same letter in another form. -/
def SameChar (c d : Char) : Prop := c = d ∨ ∃ l ∈ letters, c ∈ l ∧ d ∈ l

/-- The same name but for the form of letters. -/
inductive SameLetters : List Char → List Char → Prop where
  | nil : SameLetters [] []
  | cons {c d : Char} {a b : List Char} : SameChar c d → SameLetters a b → SameLetters (c :: a) (d :: b)

end Oidfed.Spec
