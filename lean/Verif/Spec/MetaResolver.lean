import Verif.Model.MetaResolver
import Verif.Spec.TrustMark
import Verif.Spec.Chains
/-!
# Vocabulary for metadata resolvers and the keys of trust mark issuers
-/

namespace Oidfed.Spec
open Oidfed

/-- The keys of `iss` as established through the anchor: the anchor's own if it is `iss`; or else those of a configuration of `iss` from which a
linked chain leads to the anchor, each statement signed with the keys the next one states, the last two with the anchor's keys. -/
def KeysThrough (sig : SigOracle) (ta : MarkAnchor) (iss : ID) (keys : Keys) : Prop :=
  (iss = ta.sub ∧ keys = ta.jwks) ∨
  ∃ (c : Chain) (leaf : Stmt), c[0]? = some leaf ∧ leaf.iss = iss ∧ leaf.jwks = keys ∧ Linked [⟨ta.sub, none⟩] c ∧
    (∀ k s next, k + 2 < c.length → c[k]? = some s → c[k+1]? = some next → Signed sig next.jwks s) ∧
    ∃ pre s top, c = pre ++ [s, top] ∧ Signed sig ta.jwks s ∧ Signed sig ta.jwks top

/-- The resolve endpoint published by the `n`-th anchor `a` answers the request with `x`. -/
def EndpointSays (E : Env) (p : CallPos) (q : Req) (n : Nat) (x : HttpAnswer) : Prop :=
  ∃ a ec, q.anchors[n]? = some a ∧ E.anchorEC p n a = some ec ∧ ec.resolveEndpoint ≠ "" ∧ E.http p n ec.resolveEndpoint q = x

/-- A resolver's answer that the entity is fine: a response, or that only the metadata is not. -/
def SaysValid (x : HttpAnswer) : Prop := (∃ r, x = .body (some r)) ∨ x = .errorCode "invalid_metadata"

/-- A resolver's answer that the entity is not fine. -/
def SaysInvalid (x : HttpAnswer) : Prop := x = .errorCode "invalid_trust_chain"

/-- No answer: the request failed or the response cannot be parsed. -/
def NoAnswer (x : HttpAnswer) : Prop := x = .failed ∨ x = .body none

end Oidfed.Spec
