import Verif.Spec.Operated
import Verif.Spec.Policy
import Verif.Spec.PolicyTyping
/-!
# Resolved metadata in terms of what the operators of a federation configure
-/

namespace Oidfed.Spec

/-- The statements of the chain, as configured: that of the leaf, those about the entity below, the anchor's own. -/
def onTheWay (leaf : ESPayload) (as : List Authority) (top : Authority) : List ESPayload := leaf :: (as.map Authority.about ++ [top.config])

/-- Their JWTs. -/
def jwtsOnTheWay (leafJwt : Jws) (as : List Authority) (top : Authority) : List Jws := leafJwt :: (as.map Authority.aboutJwt ++ [top.configJwt])

/-- The operators of an entry with their values as dynamic values. -/
def entryVals (N : Numbering) (e : AMap JV) : Entry := e.map (fun ov => (ov.1, ov.2.toVal N))

/-- A policy that can be merged as it should: known operators in combinations that are allowed, no `value` or `default` with repeated elements. -/
structure PolicyOk (N : Numbering) (p : JPolicy) : Prop where
  entries : ∀ k e, AMap.get p k = some e → GoodEntry (entryVals N e) ∧ Allowed (entryVals N e) ∧ NoNull (entryVals N e)

/-- The statement has such policies only. -/
def PoliciesOk (N : Numbering) (p : ESPayload) : Prop := ∀ P, p.policy = some P → ∀ t, PolicyOk N (P.known t)

/-- One of the statements has a policy for the attribute of that entity type. -/
def Names (ps : List ESPayload) (t : EType) (attr : String) : Prop := ∃ p ∈ ps, ∃ P e, p.policy = some P ∧ AMap.get (P.known t) attr = some e

/-- A field of the resolved metadata obeys an entry: its value does (for `scope`, the list it is the text of), or it was removed. An essential attribute that is not a list has a value. `isSet` tells if
the leaf stated the attribute. -/
def ResolvedObeys (e : Entry) (isSet : Bool) (f : Field) : Prop :=
  ∃ v, (HeldAs f.name v f.val ∨ v = .nil ∧ f.val = Val.zeroOf f.ty) ∧ Obeys e isSet v ∧ ((∀ e n xs, v ≠ .slice e n xs) → EssentialOk e v)

/-- Resolved metadata of one entity type against what the leaf configured: every attribute obeys each of the entries for it in the policies, and is what
the leaf configured if there is none. -/
structure BoundBy (N : Numbering) (ps : List ESPayload) (t : EType) (own : MStruct) (em : EntityMeta) : Prop where
  obeys : ∀ f ∈ metaFields t, ∃ f' ∈ em.fields, f'.name = f.name ∧ f'.tag = f.tag ∧
    ∃ isSet, (∀ v, own.val f.name = some v → Informative v → isSet = true) ∧
      ∀ p ∈ ps, ∀ P, p.policy = some P → ∀ e, AMap.get (P.known t) f.tag = some e → ResolvedObeys (entryVals N e) isSet f'
  frame : ∀ f ∈ metaFields t, ¬ Names ps t f.tag →
    ∃ v, SameContent v (own.val f.name) ∧ (⟨f.name, f.tag, f.kind.ty, f.kind.goVal N.obj v⟩ : Field) ∈ em.fields
  extra : ¬ Names ps t "-" → SameMap (Decoded N) own.extra em.extra

/-- What the leaf configured for an entity type, if that is asked for. -/
def askedOf (types : List String) (leaf : ESPayload) (t : EType) : Option MStruct :=
  if types = [] ∨ t.tag ∈ types then leaf.metadata.bind (fun m => m.known t) else none

/-- The resolved metadata: structs for the entity types that the leaf configured and that are asked for, each bound by the policies. -/
def ResolvedFrom (N : Numbering) (types : List String) (leaf : ESPayload) (ps : List ESPayload) (md : Metadata) : Prop :=
  ∀ t, Option.Rel (BoundBy N ps t) (askedOf types leaf t) (md.known t)

/-- Operator values fit the attributes they are for: no nulls, arrays for set operators, operands of the type of the attribute. An
entry named `-` is for the map of all additional claims. -/
def PoliciesFit (N : Numbering) (p : ESPayload) : Prop :=
  ∀ P, p.policy = some P → ∀ t k e, AMap.get (P.known t) k = some e →
    TypedEntry .unknown (entryVals N e) ∧ (∀ f ∈ metaFields t, f.tag = k → TypedEntry (shapeOf ⟨f.name, f.tag, f.kind.ty, .nil⟩) (entryVals N e)) ∧
    (k = "-" → TypedEntry (shapeOf ⟨"Extra", "-", .obj, .nil⟩) (entryVals N e))

/-- Something the world serves in this resolution. -/
def ServedIn (W : World) (start : ID) (s : Stmt) : Prop :=
  W.start start = some s ∨ (∃ pos id, W.ec pos id = some s) ∨ ∃ pos ep sub iss, W.fetch pos ep sub iss = some s

end Oidfed.Spec
