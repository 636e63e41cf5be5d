import Verif.Spec.MetaJSON
import Verif.Spec.Accepted
/-!
# What is stated for a claim in the end
-/

namespace Oidfed.Spec

/-- This is the last value that is stated for the claim, in whatever spelling. -/
def LastStated (l : JObj) (claim : String) (v : JV) : Prop :=
  ∃ pre k post, l = pre ++ (k, v) :: post ∧ SpelledAs claim k ∧ ∀ kv ∈ post, ¬ SpelledAs claim kv.1

/-- Nothing but null is stated for the claim. -/
def OnlyNull (l : JObj) (claim : String) : Prop := ∀ kv ∈ l, SpelledAs claim kv.1 → kv.2 = .null

/-- This is the last text that is stated for the claim, in whatever spelling; only null comes after it. -/
def LastText (l : JObj) (claim : String) (s : String) : Prop :=
  ∃ pre k post, l = pre ++ (k, .str s) :: post ∧ SpelledAs claim k ∧ OnlyNull post claim

/-- The text that the object has for the claim: the last one, or the empty text if there is none. -/
def TextIs (l : JObj) (claim : String) (s : String) : Prop := LastText l claim s ∨ (OnlyNull l claim ∧ s = "")

/-- A list of texts in JSON. Null stands for the empty text. -/
inductive ListOfTexts : List JV → List String → Prop where
  | nil : ListOfTexts [] []
  | text (s : String) {vs : List JV} {ss : List String} (h : ListOfTexts vs ss) : ListOfTexts (.str s :: vs) (s :: ss)
  | null {vs : List JV} {ss : List String} (h : ListOfTexts vs ss) : ListOfTexts (.null :: vs) ("" :: ss)

/-- The list that the object has for the claim: the last one; none if that is null or if there is none. -/
def ListIs (l : JObj) (claim : String) (o : Option (List String)) : Prop :=
  (∃ vs ss, LastStated l claim (.arr vs) ∧ ListOfTexts vs ss ∧ o = some ss) ∨
  ((LastStated l claim .null ∨ ∀ kv ∈ l, ¬ SpelledAs claim kv.1) ∧ o = none)

/-- The keys that the object has for the claim: those of the last key set. -/
def KeysAre (K : KeyCodec) (l : JObj) (claim : String) (o : Option (List JKey)) : Prop :=
  (∃ v, LastStated l claim v ∧ v ≠ .null ∧ unmarshalKeys K v = some o) ∨
  ((LastStated l claim .null ∨ ∀ kv ∈ l, ¬ SpelledAs claim kv.1) ∧ o = none)

/-- The members of an error response to a token request. -/
def errorShape : JType := .record [("error", .text), ("error_description", .text)]

/-- The members of a token response. -/
def tokenShape : JType :=
  .record [("access_token", .text), ("token_type", .text), ("expires_in", .integer), ("refresh_token", .text), ("scope", .text), ("id_token", .text)]

/-- The answer to a token request says that there was this error. -/
def SaysError (v : JV) (e : String) : Prop := e ≠ "" ∧ ∃ l, v = .obj l ∧ LastText l "error" e

end Oidfed.Spec
