import Verif.Model.MetaResolver
import Verif.Model.StmtJSON
/-!
# The trust mark claims of a statement that was read (`entitystatement.go`, `trustmark.go`)
-/

namespace Oidfed

/-- The trust mark claims of a decoded payload (entitystatement.go:81-83, 208-220), as Model/MetaResolver has them: no trust mark is parsed yet, a nil map and an
empty one answer all lookups alike. -/
def ESPayload.toClaims (N : Numbering) (p : ESPayload) : MarkClaims where
  marks := (p.marks.getD []).map (fun i => ⟨i.type, i.jwt, i.extra, none⟩)
  issuers := some (p.issuers.map (fun kv => (kv.1, kv.2.getD [])))
  owners := p.owners.map (fun kv => (kv.1, ⟨kv.2.id, kv.2.jwks.map (fun ks => ks.map N.key)⟩))

end Oidfed
