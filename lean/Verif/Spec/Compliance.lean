import Verif.Spec.PolicyTyping
/-!
# Metadata that complies with a policy, policies that can be complied with
-/

namespace Oidfed.Spec

/-- The value `v`, stated by the entity, complies with the entry: it obeys the restrictions, it has what is to be added, and
it is a value if the attribute is essential. -/
structure Complies (e : Entry) (v : Val) : Prop extends Obeys e true v where
  add : ∀ a, e.get "add" = some a → ∀ x ∈ a.elems, x ∈ v.elems
  essential : EssentialOk e v

/-- The entry says nothing about an attribute that the entity does not state. -/
def Silent (e : Entry) : Prop :=
  ¬ Has e "value" ∧ ¬ Has e "add" ∧ ¬ Has e "default" ∧ ¬ Essential e

/-- A Go value that an attribute of this shape can have. -/
def HasShape : Shape → Val → Prop
  | .list e, v => e ≠ .obj ∧ e ≠ .ptr ∧ ∃ n xs, v = .slice e n xs
  | .scalar ty, v => v.ty? = some ty ∧ v.isSlice = false
  | _, _ => False

/-- The same value, up to the order and number of the elements of a list. -/
def SameValue (v v' : Val) : Prop := v' = v ∨ ∃ e n n' xs ys, v = .slice e n xs ∧ v' = .slice e n' ys ∧ SameSet xs ys

/-- What an entity states about an attribute (or that it does not state it) complies with the policy. -/
def FieldComplies (p : Policy) (wasSet : List String) (f : Field) : Prop :=
  ∀ e, AMap.get p f.tag = some e → (f.name ∈ wasSet ∧ Complies e f.val) ∨ (f.name ∉ wasSet ∧ Silent e)

/-- A field with the same value. -/
def SameField (f f' : Field) : Prop := f'.name = f.name ∧ f'.tag = f.tag ∧ f'.ty = f.ty ∧ SameValue f.val f'.val

/-- A field for which compliance is defined here: not `scope`, not a list of objects or keys, and no `one_of` for a list. -/
def PlainFor (p : Policy) (f : Field) : Prop :=
  ∀ e, AMap.get p f.tag = some e → f.name ≠ "Scope" ∧ f.ty ≠ .slice .obj ∧ f.ty ≠ .slice .ptr ∧
    (∀ t, f.ty = .slice t → ¬ Has e "one_of")

/-- The elements of a typed list are of its element type (as Go guarantees). -/
def ElemsFit (v : Val) : Prop := ∀ e n xs, v = .slice e n xs → ∀ x ∈ xs, fitsElem e x = true

/-- Some attribute value of this shape, given or not, passes the entry. -/
def Satisfiable (sh : Shape) (e : Entry) : Prop :=
  ∃ v isSet, HasShape sh v ∧ ElemsFit v ∧ (isSet = false → Unset v) ∧ ∃ v', e.applyTo v isSet = .ok v'

end Oidfed.Spec
