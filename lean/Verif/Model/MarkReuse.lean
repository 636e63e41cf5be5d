import Verif.Model.StmtJSON
import Verif.Model.TrustMark
/-!
# One `TrustMarkInfo` object over several uses (`trustmark.go`)

A trust mark object keeps the parsed mark. Here are the ways in which callers change or use such an object. Left out: changing the `TrustMark` that `TrustMark()`
returns a pointer to, and uses from several goroutines at once.
-/

namespace Oidfed

/-- The two fields of the object as JSON values, which a decoding starts from (trustmark.go:98-99). -/
def Info.fields (i : Info) : String → Option JV := fun t =>
  if t = "trust_mark_type" then some (.str i.type) else if t = "trust_mark" then some (.str i.jwt) else none

/-- `TrustMarkInfo.UnmarshalJSON` into an object that may have been used (trustmark.go:97-107, entitystatement.go:136-153). Fields whose member is missing or null are left; `Extra`
is replaced; the parsed mark is copied from the object. An error leaves the object as it was. -/
def Info.decode (i : Info) : JV → Option Info
  | .null => some ⟨i.type, i.jwt, [], i.cached⟩
  | .obj l =>
    match decodeKnown infoTags (fun _ cur v => decString cur v) l i.fields with
    | none => none
    | some f => some ⟨strOf (f "trust_mark_type"), strOf (f "trust_mark"), (objMap l).filter (fun kv => !(infoTags.contains kv.1)), i.cached⟩
  | _ => none

/-- What callers do with a trust mark object. -/
inductive InfoUse where
  /-- assign to the exported fields -/
  | set (type jwt : String) (extra : AMap JV)
  /-- `json.Unmarshal` into it -/
  | decode (v : JV)
  /-- `TrustMark()` -/
  | get
  /-- `VerifyExternal` -/
  | external (sig : SigOracle) (nowM nowD : Time) (keys : Keys) (owners : List Owner)
  /-- `VerifyFederation` -/
  | federation (sig : SigOracle) (nowM nowD : Time) (keysFor : ID → Option (Res Keys)) (ta : MarkAnchor)

/-- The object after a use. After a panic, and while the search for the issuer's keys goes on, the mark is parsed and kept (trustmark.go:122-131). -/
def Info.after (R : JWTReader) (i : Info) : InfoUse → Info
  | .set type jwt extra => ⟨type, jwt, extra, i.cached⟩
  | .decode v => (i.decode v).getD i
  | .get => (i.trustMark R).2
  | .external sig nowM nowD keys owners => (i.verifyExternal R sig nowM nowD keys owners).2
  | .federation sig nowM nowD keysFor ta =>
    match i.verifyFederation R sig nowM nowD keysFor ta with
    | some (.ok (_, i')) => i'
    | _ => (i.trustMark R).2

/-- The object after several uses. -/
def Info.run (R : JWTReader) : Info → List InfoUse → Info
  | i, [] => i
  | i, u :: us => (i.after R u).run R us

end Oidfed
