import Verif.Spec.JSON
import Verif.Model.MetaJSON
/-!
# What is said about metadata as JSON
-/

namespace Oidfed.Spec

/-- No two members of the object have the same name. -/
def UniqueNames (l : JObj) : Prop := (l.map Prod.fst).Nodup

/-- The object states the claim: it has a member of that name that is not null. -/
def States (l : JObj) (claim : String) : Prop := ∃ v, (claim, v) ∈ l ∧ v ≠ .null

/-- No member has the name of a known claim in another spelling (upper and lower case). -/
def ExactNames (S : List MField) (l : JObj) : Prop := ∀ kv ∈ l, ∀ f ∈ S, foldName f.tag = foldName kv.1 → f.tag = kv.1

/-- No member has the Go name of a field. -/
def NoGoNames (S : List MField) (l : JObj) : Prop := ∀ kv ∈ l, ∀ f ∈ S, f.name ≠ kv.1

/-- The name is that of the claim, upper and lower case not being told apart. -/
def SpelledAs (claim name : String) : Prop := foldName name = foldName claim

/-- At most one member of the object is for the claim. -/
def StatedOnce (l : JObj) (claim : String) : Prop :=
  ∀ pre kv mid kv' post, l = pre ++ kv :: (mid ++ kv' :: post) → ¬ (SpelledAs claim kv.1 ∧ SpelledAs claim kv'.1)

/-- Null becomes the empty string, everything else stays. -/
def blankNull : JV → JV
  | .null => .str ""
  | v => v

/-- `w` is what a field of the given type holds after reading `v`: the same value; a null inside a list of strings is read as the empty
string; maps and key sets as decided by their own decoder. -/
def Reads (opq : Opaque) (k : MKind) (v w : JV) : Prop :=
  match k with
  | .str => w = v ∧ ∃ s, v = .str s
  | .bool => w = v ∧ ∃ b, v = .bool b
  | .int => w = v ∧ ∃ q, v = .num q
  | .strs => ∃ l : List JV, v = .arr l ∧ (∀ j ∈ l, j = .null ∨ ∃ s, j = .str s) ∧ w = .arr (l.map blankNull)
  | .map => opq .map v = some w
  | .ptr => opq .ptr v = some w

/-- Values that say something: not the empty string, false, zero, the empty list or object. -/
def Informative (v : JV) : Prop := v ≠ .str "" ∧ v ≠ .bool false ∧ v ≠ .num 0 ∧ v ≠ .arr [] ∧ v ≠ .obj []

/-- Nothing there: nil, or an empty list or map. -/
def Blank (v : Option JV) : Prop := v = none ∨ v = some (.arr []) ∨ v = some (.obj [])

/-- The same value, where nil and empty lists and maps are not told apart. -/
def SameContent (a b : Option JV) : Prop := a = b ∨ (Blank a ∧ Blank b)

end Oidfed.Spec
