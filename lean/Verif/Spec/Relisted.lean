import Verif.Spec.Compliance
/-!
# Policies and metadata that differ in the order of lists only
-/

namespace Oidfed.Spec
open Oidfed

/-- Policies for the same attributes, with the same operators, whose operands are the same up to the order and number of the elements of a list. -/
def Relisted (p q : Policy) : Prop :=
  ∀ k, Option.Rel (fun a b : Entry => ∀ op, Option.Rel SameValue (AMap.get a op) (AMap.get b op)) (AMap.get p k) (AMap.get q k)

/-- No `one_of` of the policy has a list as an element. -/
def FlatOneOf (p : Policy) : Prop :=
  ∀ k e s, AMap.get p k = some e → AMap.get e "one_of" = some s → ∀ v ∈ s.elems, v.isSlice = false

/-- The same attribute, with the same value up to the order and number of the elements of a list; a scope is a list of strings joined with blanks. -/
structure SameAttribute (f g : Field) : Prop where
  name : g.name = f.name
  tag : g.tag = f.tag
  ty : g.ty = f.ty
  val : SameValue f.val g.val ∨ (f.name = "Scope" ∧ ∃ xs ys, SameSet xs ys ∧ f.val = .str (joinScope xs) ∧ g.val = .str (joinScope ys))

/-- Where two of the policies state a `value` (or a `default`) for one attribute, both state an array or neither does. -/
def SameKinds (ps : List Policy) : Prop :=
  ∀ p ∈ ps, ∀ q ∈ ps, ∀ k a b op x y, AMap.get p k = some a → AMap.get q k = some b → (op = "value" ∨ op = "default") → AMap.get a op = some x → AMap.get b op = some y →
    x ≠ .nil → y ≠ .nil → ((∃ n xs, x = .slice .any n xs) ∧ ∃ n ys, y = .slice .any n ys) ∨ (x.isSlice = false ∧ y.isSlice = false)

end Oidfed.Spec
