import Verif.Spec.AnyOrder
import Verif.Spec.PolicyTyping
import Verif.Model.Statement
/-!
# Policies that check less
-/

namespace Oidfed.Spec
open Oidfed

/-- The operators that only check: they accept or refuse a value, but do not change it. -/
def checks : List OpName := ["one_of", "superset_of", "essential"]

/-- The operand `x'` of an operator is `x`, or a check was dropped or relaxed: a `one_of` allows more, a `superset_of` demands less, an `essential` is no longer so. -/
def RelaxedOp (op : OpName) (x' x : Option Val) : Prop :=
  x' = x ∨ (op ∈ checks ∧ x' = none) ∨
  (op = "one_of" ∧ ∃ v' v, x' = some v' ∧ x = some v ∧ v ≠ .nil ∧ ∀ y ∈ v.elems, y ∈ v'.elems) ∨
  (op = "superset_of" ∧ ∃ v' v, x' = some v' ∧ x = some v ∧ v ≠ .nil ∧ v' ≠ .nil ∧ ∀ y ∈ v'.elems, y ∈ v.elems) ∨
  (op = "essential" ∧ x' = some (.bool false) ∧ x ≠ none)

/-- The operand of an operator in what a policy states for an attribute, if there is one. -/
def operand (p : Policy) (k : String) (op : OpName) : Option Val := (AMap.get p k).bind (fun e => AMap.get e op)

/-- The policy `p'` only differs from `p` in that checks were dropped or relaxed. An attribute for which no operator is left may be mentioned or not. -/
def RelaxedPolicy (p' p : Policy) : Prop := ∀ k op, RelaxedOp op (operand p' k op) (operand p k op)

/-- The same for the policies of a statement. -/
def RelaxedPolicies (P' P : Policies) : Prop := (∀ t, RelaxedPolicy (P'.known t) (P.known t)) ∧ P'.extra = P.extra

/-- What a statement prescribes; nothing if it has no policies. -/
def prescribed (s : Stmt) : Policies := s.policy.getD ⟨fun _ => [], []⟩

/-- The statements of `c'` are those of `c`, except that checks of their policies may be dropped or relaxed, and policies for which nothing is left may be omitted. -/
def RelaxedChain (c' c : Chain) : Prop :=
  Each (fun s' s : Stmt => s'.metadata = s.metadata ∧ s'.policyCrit = s.policyCrit ∧ RelaxedPolicies (prescribed s') (prescribed s)) c' c

/-- All policies for known entity types stated in the chain are ordinary ones. -/
def OrdinaryKnown (c : Chain) : Prop := ∀ s ∈ c, ∀ P, s.policy = some P → ∀ t, OrdinaryPolicy (P.known t)

end Oidfed.Spec
