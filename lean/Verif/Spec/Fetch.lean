import Verif.Model.Fetch
/-!
# Where statements come from
-/

namespace Oidfed.Spec

/-- The URLs an entity answers for: its own configuration URL, and every fetch endpoint stated in something served at such a URL. -/
inductive LeadsTo (served : List (Request × Stmt)) (id : ID) : String → Prop where
  | own : LeadsTo served id (configURL id)
  | named {q : Request} {st : Stmt} : (q, st) ∈ served → LeadsTo served id q.url → st.fetchEndpoint ≠ "" → LeadsTo served id st.fetchEndpoint

/-- A statement returned for subject and issuer comes from the issuer: it was served (and possibly went through the cache) for the issuer's
configuration, if the issuer is the subject, or for a request for a statement about the subject at a URL the issuer answers for. -/
def FromIssuer (served : List (Request × Stmt)) (sub iss : ID) (st : Stmt) : Prop :=
  ∃ q st0, (q, st0) ∈ served ∧ (st = st0 ∨ st = st0.viaCache) ∧
    ((q = ⟨configURL iss, none⟩ ∧ sub = iss) ∨ (q.sub = some sub ∧ LeadsTo served iss q.url))

end Oidfed.Spec
