import Verif.Spec.ResolveJSON
import Verif.Spec.OperatedMarks
/-!
# A resolver that answers others
-/

namespace Oidfed.Spec

/-- A field with its value. -/
def fieldOf (N : Numbering) (f : MField) (v : Option JV) : Field := ⟨f.name, f.tag, f.kind.ty, f.kind.goVal N.obj v⟩

/-- A response says what the resolver has found: the same metadata, the same trust marks, the same messages. -/
structure Holds (N : Numbering) (num : Jws → Nat) (p : RRPayload) (r : Payload) : Prop where
  metadata : Option.Rel (ReadMetadata N) p.metadata r.metadata
  marks : (p.marks.getD []).map (fun i => (i.type, i.jwt)) = r.marks.map (fun i => (i.type, i.jwt))
  chain : (p.chain.getD []).map (fun m => m.map (fun x => num x.msg)) = r.chain

/-- Structs of two parties: the same values in all fields, and the same additional attributes. -/
structure SameStructs (N : Numbering) (t : EType) (s c : EntityMeta) : Prop where
  fields : ∀ f ∈ metaFields t, ∃ v w, SameContent w v ∧ fieldOf N f v ∈ s.fields ∧ fieldOf N f w ∈ c.fields
  extra : SameMap Eq s.extra c.extra

/-- Metadata of two parties: the same entity types with the same attributes, and the same unknown entity types. -/
structure SameAttributes (N : Numbering) (a b : Metadata) : Prop where
  known : ∀ t, Option.Rel (SameStructs N t) (a.known t) (b.known t)
  extra : SameMap Eq (a.extra.getD []) (b.extra.getD [])

/-- The text is a response, signed with the library, that says what was found. -/
def RespondsWith (C : Crypto) (S : JSigner) (X : Reader) (P : String → Option Jws) (ser : Jws → String) (r : Payload) (body : String) : Prop :=
  ∃ resp j, Holds X.N X.num resp.payload r ∧ ResponseOk P X.opq resp ∧ signResponse C S resp = .ok j ∧ body = ser j

/-- The caller of a remote resolver has what that resolver found: the trust chain, message for message, the trust marks in their order, and the metadata. -/
structure SameFindings (N : Numbering) (r pl : Payload) : Prop where
  chain : pl.chain = r.chain
  marks : pl.marks.map (fun i => (i.type, i.jwt)) = r.marks.map (fun i => (i.type, i.jwt))
  metadata : Option.Rel (SameAttributes N) r.metadata pl.metadata

/-- The issuer is the anchor, whose configuration has its keys, or another entity for which the resolver `rec` returns a trust chain that begins with the configuration
the issuer published, which has its keys. -/
def IssuerSeen (C : Crypto) (X : Reader) (signer : ID → JSigner) (rec : Req → Option (Res Payload)) (tp : ESPayload) (K : List JKey) (J : List Jws) (iss : ID) : Prop :=
  (iss = tp.iss ∧ HasKeysOf C signer tp iss) ∨
  (iss ≠ tp.iss ∧ ∃ ip ij r rest, ip.iss = iss ∧ Published C X signer ip ij ∧ HasKeysOf C signer ip iss ∧ (∀ k ∈ ip.jwks.getD [], k ∈ K) ∧ ij ∈ J ∧
    rec ⟨iss, [tp.iss], []⟩ = some (.ok r) ∧ r.chain = some (X.num ij) :: rest)

/-- The `k`-th trust mark of an entity's configuration, resolved at `p`, is one that the anchor's configuration accepts: as `GoodMark`, the issuers being looked up with `rec`. -/
def GoodMarkVia (C : Crypto) (X : Reader) (ser : Jws → String) (signer : ID → JSigner) (E : Env) (rec : CallPos → Req → Option (Res Payload)) (tp : ESPayload)
    (K : List JKey) (J : List Jws) (p : CallPos) (k : Nat) (type jwt : String) : Prop :=
  ∃ I s now sub custom l info, Issued C signer ser I s now type sub custom l info (E.now p k).1 ∧ jwt = info.jwt ∧ LetsIssue tp type I.id ∧
    IssuerSeen C X signer (rec (p ++ [k])) tp K J I.id ∧ OwnerOk C signer ser tp K s type I.id (E.now p k).2

/-- The text is the response of a resolver that has found the entity, which serves its configuration `ij`, with its own local resolver. -/
def RespondsFor (C : Crypto) (S : JSigner) (X : Reader) (P : String → Option Jws) (ser : Jws → String) (q : Req) (ij : Jws) (body : String) : Prop :=
  ∃ (E : Env) (rec : CallPos → Req → Option (Res Payload)) (p : CallPos) (r : Payload), localPayload E rec p q = some (.ok r) ∧
    (E.world p).start q.subject = parseStmt P X.decode (ser ij) ∧ RespondsWith C S X P ser r body

/-- Everything this resolution can be served was published with the library; at the entity, its configuration `lp`. -/
structure ServedPublished (C : Crypto) (X : Reader) (signer : ID → JSigner) (read : Jws → Option Stmt) (W : World) (subject : ID) (lp : ESPayload) : Prop where
  served : ∀ s, ServedIn W subject s → ∃ p j, Published C X signer p j ∧ read j = some s
  entity : ∃ lj, Published C X signer lp lj ∧ W.start subject = read lj

/-- A number of nanoseconds in the years 1823 to 2116. -/
def TimeOk (t : Time) : Prop := |t| ≤ 2 ^ 62

end Oidfed.Spec
