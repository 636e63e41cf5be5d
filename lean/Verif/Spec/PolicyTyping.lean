import Verif.Spec.Policy
import Verif.Model.Statement
/-!
# Policies whose operator values fit the attributes they are for
-/

namespace Oidfed.Spec

/-- What kind of attribute a struct field holds. -/
inductive Shape where
  | list (e : ETy)
  | scalar (ty : Ty)
  | scope
  | opaque
  | unknown
deriving DecidableEq, Repr

/-- The shape of a struct field: lists of scalars, scalars, the `scope` string; other lists are opaque. -/
def shapeOf (f : Field) : Shape :=
  match f.ty with
  | .slice .obj => .opaque
  | .slice .ptr => .opaque
  | .slice e => .list e
  | .str => if f.name = "Scope" then .scope else .scalar .str
  | t => .scalar t

/-- Elements a set-valued operator may add to or cut from the attribute. -/
def ElemsOk : Shape → List Val → Prop
  | .list e, xs => ∀ x ∈ xs, fitsElem e x = true
  | .scope, xs => ∀ x ∈ xs, fitsElem .str x = true
  | .unknown, _ => True
  | _, _ => False

/-- Values the attribute can be set to. -/
def ValueOk : Shape → Val → Prop
  | .list e, v => ∃ n xs, v = .slice .any n xs ∧ ∀ x ∈ xs, fitsElem e x = true
  | .scalar ty, v => v.ty? = some ty ∧ v.isSlice = false
  | .scope, v => (∃ s, v = .str s) ∨ ∃ n xs, v = .slice .any n xs ∧ ∀ x ∈ xs, fitsElem .str x = true
  | .unknown, _ => True
  | .opaque, _ => False

/-- The value of operator `op` fits an attribute of this shape: it is not null, set operators have arrays, and what is
written into the attribute has its type. -/
structure TypedOp (sh : Shape) (op : String) (v : Val) : Prop where
  notNull : v ≠ .nil
  list : op = "add" ∨ op = "subset_of" ∨ op = "superset_of" ∨ op = "one_of" → ∃ n xs, v = .slice .any n xs
  elems : op = "add" ∨ op = "subset_of" → ElemsOk sh v.elems
  value : op = "value" ∨ op = "default" → ValueOk sh v

/-- Every operator value of the entry fits. -/
def TypedEntry (sh : Shape) (e : Entry) : Prop := ∀ kv ∈ e, TypedOp sh kv.1 kv.2

/-- Every entry fits the fields (if any) it is for. -/
def TypedPolicy (fs : List Field) (p : Policy) : Prop :=
  ∀ ke ∈ p, TypedEntry .unknown ke.2 ∧ ∀ f ∈ fs, f.tag = ke.1 → TypedEntry (shapeOf f) ke.2

/-- A field that holds a value of its type (as Go guarantees); `scope` is a string, and the additional claims (the field with the tag `-`) are a map. -/
def FieldOk (f : Field) : Prop := f.val.ty? = some f.ty ∧ (f.name = "Scope" → f.ty = .str) ∧ (f.tag = "-" → f.ty = .obj)

/-- The fields of one entity type in some metadata (none if the entity does not have that type). -/
def fieldsOf (m : Option Metadata) (t : EType) : List Field :=
  match m with
  | none => []
  | some m => match m.known t with
    | none => []
    | some em => em.fields

end Oidfed.Spec
