import Verif.Model.Policy
/-!
# What a metadata policy entry demands of an attribute value

An independent reading of the operators, on *sets of elements* of dynamic values.
-/

namespace Oidfed

/-- The elements a value stands for: none for null, the members of a list, a scalar itself. -/
def Val.elems : Val → List Val
  | .nil => []
  | .slice _ _ xs => xs
  | v => [v]

namespace Spec

/-- Two lists with the same members. -/
def SameSet (a b : List Val) : Prop := ∀ x, x ∈ a ↔ x ∈ b

/-- The value a Go field has when the attribute is absent from the JSON document (or null). -/
inductive Unset : Val → Prop where
  | nil : Unset .nil
  | str : Unset (.str "")
  | bool : Unset (.bool false)
  | num : Unset (.num 0)
  | int : Unset (.int 0)
  | obj : Unset (.obj none)
  | ptr : Unset (.ptr none)
  | slice (e : ETy) (xs : List Val) : Unset (.slice e true xs)

/-- The attribute has a value: it was given by the entity (`isSet`) and not removed, or it is not the zero value. -/
def Present (isSet : Bool) (v : Val) : Prop := v ≠ .nil ∧ (isSet = true ∨ ¬ Unset v)

/-- The entry marks the attribute as essential. -/
def Essential (e : Entry) : Prop := e.get "essential" = some (.bool true)

/-- The restrictions of entry `e` hold of the resulting value `v` of an attribute that was (`isSet`) or was not given by the
entity. A null operator value is no restriction, except for `value`, where it means that the attribute is removed. -/
structure Obeys (e : Entry) (isSet : Bool) (v : Val) : Prop where
  subset : Present isSet v ∨ Essential e → ∀ s, e.get "subset_of" = some s → s ≠ .nil → ∀ x ∈ v.elems, x ∈ s.elems
  superset : Present isSet v ∨ Essential e → ∀ s, e.get "superset_of" = some s → s ≠ .nil → ∀ x ∈ s.elems, x ∈ v.elems
  oneOf : Present isSet v ∨ Essential e → ∀ s, e.get "one_of" = some s → s ≠ .nil → v ∈ s.elems
  value : ∀ s, e.get "value" = some s → SameSet v.elems s.elems

/-- An essential attribute has a value. -/
def EssentialOk (e : Entry) (v : Val) : Prop := Essential e → ¬ Unset v

end Spec
end Oidfed

namespace Oidfed.Spec

/-- Operator `n` occurs in the entry. -/
def Has (p : Entry) (n : String) : Prop := ∃ v, p.get n = some v

/-- The seven operator names of the specification. -/
def Known (n : String) : Prop :=
  n = "value" ∨ n = "add" ∨ n = "default" ∨ n = "one_of" ∨ n = "subset_of" ∨ n = "superset_of" ∨ n = "essential"

/-- All operators of the entry are known. -/
def KnownOps (p : Entry) : Prop := ∀ n, Has p n → Known n

/-- The combinations of operators (and operator values) that are allowed in one entry. -/
structure Allowed (p : Entry) : Prop where
  oneOfAlone : Has p "one_of" → ¬ Has p "add" ∧ ¬ Has p "subset_of" ∧ ¬ Has p "superset_of"
  oneOfNonempty : ∀ s, p.get "one_of" = some s → s.elems ≠ []
  supersetInSubset : ∀ s t, p.get "superset_of" = some s → p.get "subset_of" = some t → ∀ x ∈ s.elems, x ∈ t.elems
  addInSubset : ∀ s t, p.get "add" = some s → p.get "subset_of" = some t → ∀ x ∈ s.elems, x ∈ t.elems
  addInValue : ∀ s t, p.get "add" = some s → p.get "value" = some t → ∀ x ∈ s.elems, x ∈ t.elems
  valueInSubset : ∀ s t, p.get "value" = some s → p.get "subset_of" = some t → ∀ x ∈ s.elems, x ∈ t.elems
  defaultNotNull : Has p "default" → p.get "value" ≠ some .nil

/-- No null occurs where the verifier computes an inclusion: a null `superset_of`, `add` or `value` beside `subset_of`, or a
null `add` beside `value`. -/
structure NoNull (p : Entry) : Prop where
  superset : Has p "subset_of" → p.get "superset_of" ≠ some .nil
  add : Has p "subset_of" → p.get "add" ≠ some .nil
  addValue : Has p "value" → p.get "add" ≠ some .nil
  value : Has p "subset_of" → p.get "value" ≠ some .nil

end Oidfed.Spec

namespace Oidfed.Spec

/-- Two operator values that mean the same: both null or both not, with the same elements. -/
def SameVal (x y : Val) : Prop := (x = .nil ↔ y = .nil) ∧ SameSet x.elems y.elems

/-- Entries with the same operators, whose values are the same as sets. -/
def SameEntry (a b : Entry) : Prop :=
  ∀ op, (Has a op ↔ Has b op) ∧ ∀ x y, a.get op = some x → b.get op = some y → SameVal x y

/-- Policies naming the same attributes, with the same entries. -/
def SamePolicy (p q : Policy) : Prop :=
  ∀ k, ((AMap.get p k).isSome = (AMap.get q k).isSome) ∧
    ∀ a b, AMap.get p k = some a → AMap.get q k = some b → SameEntry a b

/-- Entries as the merging rules assume them: a map (unique keys) of known operators, with a `value` and a `default` that
list no element twice. -/
structure GoodEntry (e : Entry) : Prop where
  wf : e.WF
  known : KnownOps e
  nodup : ∀ s, e.get "value" = some s → s.elems.Nodup
  nodupDefault : ∀ s, e.get "default" = some s → s.elems.Nodup

/-- A set-valued operator with a JSON array (or null) as its value. -/
def ListOrNull (v : Val) : Prop := v = .nil ∨ ∃ n xs, v = .slice .any n xs

/-- Good entries whose set-valued operators have arrays (or null) as values. -/
structure PlainEntry (e : Entry) : Prop extends GoodEntry e where
  lists : ∀ op s, op = "add" ∨ op = "one_of" ∨ op = "subset_of" ∨ op = "superset_of" → e.get op = some s → ListOrNull s

/-- A policy all of whose entries are plain. -/
structure PlainPolicy (p : Policy) : Prop where
  wf : AMap.WF p
  entries : ∀ k e, AMap.get p k = some e → PlainEntry e

/-- A policy all of whose entries are good. -/
structure GoodPolicy (p : Policy) : Prop where
  wf : AMap.WF p
  entries : ∀ k e, AMap.get p k = some e → GoodEntry e

end Oidfed.Spec

namespace Oidfed.Spec

/-- The same map, possibly listed in another order. -/
def EqEntry (a b : Entry) : Prop := ∀ op, a.get op = b.get op

/-- The same policy: the same attributes with the same entries, possibly listed in another order. -/
def EqPolicy (p q : Policy) : Prop :=
  ∀ k, ((AMap.get p k).isSome = (AMap.get q k).isSome) ∧
    ∀ a b, AMap.get p k = some a → AMap.get q k = some b → EqEntry a b

/-- A policy without unknown operators. -/
structure KnownPolicy (p : Policy) : Prop where
  wf : AMap.WF p
  entries : ∀ k e, AMap.get p k = some e → e.WF ∧ KnownOps e

/-- Two lists related element by element. -/
inductive Each {α β : Type} (R : α → β → Prop) : List α → List β → Prop where
  | nil : Each R [] []
  | cons {a : α} {b : β} {as : List α} {bs : List β} : R a b → Each R as bs → Each R (a :: as) (b :: bs)

/-- The words of a `scope` value, separated by single spaces. -/
def scopeOf (ws : List String) : String := String.intercalate " " ws

/-- The attribute called `name` holds the value `v` as `w`: as it is, except that the `scope` attribute holds a list of words as one string. (The elements of a
`[]string` are strings, as Go guarantees.) -/
def HeldAs (name : String) (v w : Val) : Prop :=
  w = v ∨ name = "Scope" ∧ ∃ n xs, v = .slice .str n xs ∧ ∀ ws : List String, xs = ws.map Val.str → w = .str (scopeOf ws)

end Oidfed.Spec
