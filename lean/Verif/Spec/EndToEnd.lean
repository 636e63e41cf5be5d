import Verif.Spec.Fetch
import Verif.Spec.Jws
import Verif.Spec.Chains
/-!
# Who served, who signed: vocabulary for whole trust chains
-/

namespace Oidfed.Spec

/-- Everything a resolution obtained from outside was returned by the lookups made so far. -/
structure AnswersOf (s : FState) (W : World) : Prop where
  start : ∀ id st, W.start id = some st → (Lookup.config id, st) ∈ s.returned
  ec : ∀ p id st, W.ec p id = some st → (Lookup.config id, st) ∈ s.returned
  fetch : ∀ p ep sub iss st, W.fetch p ep sub iss = some st → (Lookup.fetch ep sub iss, st) ∈ s.returned

/-- A signature of the JWT was made with the key. -/
def MadeBy (C : Crypto) (k : JKey) (m : Jws) : Prop := ∃ sg, SignedBy C [k] m sg

/-- The entity `e` is truthful: whatever it signed with a key it holds and that reads as an entity statement, it signed in its own name, and the keys
given for the subject are held by the subject. -/
def Truthful (C : Crypto) (keyOf : Nat → JKey) (D : Jws → Option Stmt) (Holds : ID → JKey → Prop) (e : ID) : Prop :=
  ∀ k m s, Holds e k → MadeBy C k m → D m = some s → s.iss = e ∧ ∀ ks, s.jwks = some ks → ∀ n ∈ ks, Holds s.sub (keyOf n)

/-- The statement is what its JWT says, as far as issuer, subject and keys are concerned. -/
def ReadFrom (msgOf : Nat → Jws) (D : Jws → Option Stmt) (s : Stmt) : Prop :=
  ∀ r, s.raw = some r → ∃ s', D (msgOf r) = some s' ∧ s.iss = s'.iss ∧ s.sub = s'.sub ∧ s.jwks = s'.jwks

/-- The statement was signed by an entity: its JWT has a signature made with a key that the entity holds. -/
def SignedByEntity (C : Crypto) (msgOf : Nat → Jws) (Holds : ID → JKey → Prop) (s : Stmt) (e : ID) : Prop :=
  ∃ k r, Holds e k ∧ s.raw = some r ∧ MadeBy C k (msgOf r)

/-- A statement of an entity that uses this library's signer: its JWT is what the entity's signer made of some payload. -/
def IssuedWith (C : Crypto) (msgOf : Nat → Jws) (signer : ID → JSigner) (s : Stmt) : Prop :=
  ∃ r payload, s.raw = some r ∧ signAs C (signer s.iss) .entityStatement payload = .ok (msgOf r)

/-- The key set is the one the entity's signer publishes. -/
def KeysOf (C : Crypto) (keyOf : Nat → JKey) (signer : ID → JSigner) (keys : Keys) (e : ID) : Prop :=
  ∃ ks, keys = some ks ∧ (signer e).jwks C = .ok (ks.map keyOf)

/-- A path on which everybody uses this library's signers: the steps are in order apart from signatures, all statements are issued with the signer of their
issuer, each superior publishes the keys of the signer of its subordinate, and the anchor's authoritative keys are those of its signer. -/
structure OperatedPath (C : Crypto) (keyOf : Nat → JKey) (msgOf : Nat → Jws) (signer : ID → JSigner) (W : World) (A : List Anchor) (leaf : Stmt)
    (steps : List Step) : Prop where
  steps_ok : ∀ k e s, (entities leaf steps)[k]? = some e → steps[k]? = some s → StepOk W A leaf steps k e s
  leaf_issued : IssuedWith C msgOf signer leaf
  issued : ∀ s ∈ steps, IssuedWith C msgOf signer s.ec ∧ IssuedWith C msgOf signer s.sub
  published : ∀ s ∈ steps, KeysOf C keyOf signer s.sub.jwks s.sub.sub
  top : ∃ s ta keys, steps.getLast? = some s ∧ FirstAnchor A s.ec.iss ta ∧ AnchorKeys ta s.ec keys ∧ KeysOf C keyOf signer keys ta.id

end Oidfed.Spec
