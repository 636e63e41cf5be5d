import Verif.Model.Discovery
import Verif.Model.MetaResolver
/-!
# The claims of a collected entity (`discovery.go`)
-/

namespace Oidfed

/-- `CollectedEntity` (discovery.go:40-48) without `Extra`, which the collector never sets. `none` is a nil slice or pointer; of the trust chain messages the
number of the message, or none for a nil pointer. -/
structure CollectedFull where
  id : ID
  types : List String
  ui : AMap UIInfo
  marks : Option (List Info)
  chain : Option (List (Option Nat))
  metadata : Option Metadata

/-- `slices.Contains(req.Claims, c)` (discovery.go:410, 413, 416, 425). -/
def named (claims : Option (List String)) (c : String) : Bool :=
  match claims with
  | none => false
  | some cs => cs.contains c

/-- What is used of the resolver's answer: marks (nil or not), metadata, trust chain. -/
structure Resolved where
  marks : Option (List Info)
  metadata : Option Metadata
  chain : Option (List (Option Nat))

/-- The resolution for the entity (discovery.go:389-423); the inner `none` if there is no answer: none was asked for, or there was an error, which is only logged.
The default resolver is asked at call position `p` as in `getTrustMarkIssuerJWKS`: a local one is asked for a payload without trust marks, any other one for its
whole payload. `emptyNil`: an answer without trust marks has a nil slice instead of an empty one; with a local resolver it always has. -/
def resolveEntity (E : Env) (D : Default) (fuel : Nat) (p : CallPos) (emptyNil : Bool) (claims : Option (List String)) (anchor id : ID) :
    Option (Res (Option Resolved)) :=
  if named claims "metadata" || named claims "trust_chain" then
    match D.resolve E fuel p ⟨id, [anchor], []⟩ with
    | none => none
    | some (.error .panic) => some (.error .panic)
    | some (.error .error) => some (.ok none)
    | some (.ok r) =>
      let noMarks := match D with
        | .loc => true
        | _ => emptyNil
      some (.ok (some ⟨if r.marks.isEmpty && noMarks then none else some r.marks, r.metadata, some r.chain⟩))
  else some (.ok none)

/-- The trust marks (discovery.go:409-411, 425-434); `ta` is the anchor's configuration, none if it cannot be obtained; `p` the call position of the
verification. `VerifiedFederation` returns nil if no mark is verified (trustmark.go:22-29). -/
def entityMarks (E : Env) (D : Default) (fuel : Nat) (p : CallPos) (claims : Option (List String)) (ta : Option Stmt) (st : Stmt)
    (res : Option Resolved) : Option (Res (Option (List Info))) :=
  if named claims "trust_marks" then
    match res.bind Resolved.marks with
    | some marks => some (.ok (some marks))
    | none => match ta with
      | none => some (.ok none)
      | some ta =>
        let a := E.anchorOf ta
        match verifiedFederation E.reader E.sig (E.now p) (fun n iss => issuerKeys E (p ++ [n]) (D.resolve E fuel (p ++ [n])) a iss) a 0
            (E.claims st).marks with
        | none => none
        | some (.error f) => some (.error f)
        | some (.ok r) => some (.ok (if r.isEmpty then none else some r))
  else some (.ok none)

/-- The entity that is sent for an included subordinate with configuration `st` and its metadata `m` (discovery.go:337-434). The resolution is at call position
`p`, the verification of trust marks at `pm`. -/
def collectEntity (E : Env) (D : Default) (fuel : Nat) (p pm : CallPos) (emptyNil : Bool) (claims : Option (List String)) (anchor : ID)
    (ta : Option Stmt) (id : ID) (st : Stmt) (m : Metadata) : Option (Res CollectedFull) :=
  match collectUI claims m with
  | .error f => some (.error f)
  | .ok ui =>
    match resolveEntity E D fuel p emptyNil claims anchor id with
    | none => none
    | some (.error f) => some (.error f)
    | some (.ok res) =>
      match entityMarks E D fuel pm claims ta st res with
      | none => none
      | some (.error f) => some (.error f)
      | some (.ok marks) =>
        some (.ok ⟨id, if wanted claims "entity_types" then m.entityTypes else [], ui, marks,
          if named claims "trust_chain" then res.bind Resolved.chain else none,
          if named claims "metadata" then res.bind Resolved.metadata else none⟩)

end Oidfed
