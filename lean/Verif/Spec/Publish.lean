import Verif.Spec.StmtJSON
import Verif.Spec.Federation
import Verif.Spec.Jws
import Verif.Model.Fetch
/-!
# Publishing statements for others to read
-/

namespace Oidfed.Spec

/-- How statements are read: JSON form of keys, decoding of maps and key sets in metadata, and the numbers that stand for keys, objects and messages in the model
of the resolver. -/
structure Reader where
  K : KeyCodec
  opq : Opaque
  N : Numbering
  num : Jws → Nat

/-- Reading a JWT (`ParseEntityStatement` after the check of the type). -/
def Reader.decode (X : Reader) : Jws → Option Stmt := decodeStmt X.K X.opq X.N X.num

/-- Keys are read as they were written, maps are objects, and the numbers of the keys `ks` and of the JWTs `js` stand for these. -/
structure Faithful (X : Reader) (keyOf : Nat → JKey) (msgOf : Nat → Jws) (ks : List JKey) (js : List Jws) : Prop where
  keys : ∀ k, X.K.dec (X.K.enc k) = some k
  maps : ∀ v w, X.opq .map v = some w → ∃ l, w = .obj l
  keyNumbers : ∀ k ∈ ks, keyOf (X.N.key k) = k
  messages : ∀ j ∈ js, msgOf (X.num j) = j

/-- A time at least two microseconds after issuing and two microseconds before expiry. -/
def SafelyWithin (p : ESPayload) (t : Time) : Prop := p.iat + 2000 ≤ t ∧ t ≤ p.exp - 2000

/-- A time at most two microseconds before issuing and two microseconds after expiry. -/
def NearlyWithin (p : ESPayload) (t : Time) : Prop := p.iat - 2000 < t ∧ t < p.exp + 2000

/-- The JSON value and the Go value it is decoded to if nothing is known about its type: strings and booleans as they are, numbers rounded to the nearest `float64`, null
as nil, arrays element by element in order, objects under their number. -/
inductive Decoded (N : Numbering) : JV → Val → Prop
  | null : Decoded N .null .nil
  | bool (b : Bool) : Decoded N (.bool b) (.bool b)
  | num (q : Rat) : Decoded N (.num q) (.num (float64 q))
  | str (s : String) : Decoded N (.str s) (.str s)
  | obj (l : JObj) : Decoded N (.obj l) (.obj (some (N.obj (.obj l))))
  | arr (l : List JV) (xs : List Val) (hl : l.length = xs.length) (h : ∀ (i : Nat) (h1 : i < l.length) (h2 : i < xs.length), Decoded N l[i] xs[i]) :
      Decoded N (.arr l) (.slice .any false xs)

/-- A struct as a reader of the published statement has it: the same values in all fields, and the same additional attributes. -/
structure ReadStruct (N : Numbering) (t : EType) (a : MStruct) (b : EntityMeta) : Prop where
  fields : ∀ f ∈ metaFields t, ∃ v, SameContent v (a.val f.name) ∧ (⟨f.name, f.tag, f.kind.ty, f.kind.goVal N.obj v⟩ : Field) ∈ b.fields
  extra : SameMap (Decoded N) a.extra b.extra

/-- Metadata as a reader of the published statement has it: a struct for the same entity types with the same content, and the same unknown entity types. -/
structure ReadMetadata (N : Numbering) (m : JMetadata) (r : Metadata) : Prop where
  known : ∀ t, Option.Rel (ReadStruct N t) (m.known t) (r.known t)
  extra : SameMap (Decoded N) m.extra (r.extra.getD [])

/-- A policy as a reader of the published statement has it: the same attributes with the same operators with the same values. -/
def ReadPolicy (N : Numbering) (a : JPolicy) (b : Policy) : Prop := SameMap (SameMap (Decoded N)) a b

/-- Policies as a reader of the published statement has them. -/
structure ReadPolicies (N : Numbering) (a : JPolicies) (b : Policies) : Prop where
  known : ∀ t, ReadPolicy N (a.known t) (b.known t)
  extra : SameMap (fun x y => ∃ q, y = some q ∧ ReadPolicy N x q) a.extra b.extra

/-- The published claims and what a reader acts on. -/
structure ReadAs (N : Numbering) (p : ESPayload) (s : Stmt) : Prop where
  iss : s.iss = p.iss
  sub : s.sub = p.sub
  keys : s.jwks.getD [] = (p.jwks.getD []).map N.key
  hints : s.hints = p.hints.getD []
  metadata : Option.Rel (ReadMetadata N) p.metadata s.metadata
  policy : Option.Rel (ReadPolicies N) p.policy s.policy
  constraints : s.constraints = p.constraints
  crit : s.crit = p.crit.getD []
  policyCrit : s.policyCrit = p.policyCrit.getD []

end Oidfed.Spec
