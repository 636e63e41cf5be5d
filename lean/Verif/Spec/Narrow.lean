import Verif.Spec.Collector
/-!
# Vocabulary for comparing collections
-/

namespace Oidfed.Spec
open Oidfed

/-- `out` is what a finished collection for the request returns, under some schedule and with a collector that may have been used before. -/
def Collects (E : CollectEnv) (q : CollectReq) (out : List ID) : Prop :=
  ∃ (s0 s : CState) (r : CFrame), CIdle maxCollectWorkers s0 ∧ CRun maxCollectWorkers (E.world q) s0 q.anchor s ∧
    s.frames[s0.frames.length]? = some r ∧ r.phase = .returned ∧ r.out = out

/-- `q'` has all criteria of `q`, and possibly more: the entity types it asks for are among those of `q`, it has the name query of `q` if there is one, and
it asks for at least the trust mark types of `q`. -/
structure Narrower (q' q : CollectReq) : Prop where
  anchor : q'.anchor = q.anchor
  types : ∀ ts, q.types = some ts → ∃ ts', q'.types = some ts' ∧ ∀ t ∈ ts', t ∈ ts
  name : q.name = "" ∨ q'.name = q.name
  marks : ∀ t ∈ q.markTypes, t ∈ q'.markTypes

/-- Where `E'` answers with a configuration or a listing, `E` gives the same answer; trust marks that are verified in `E'` are verified in `E`. -/
structure FewerAnswers (E' E : CollectEnv) : Prop where
  ec : ∀ x s, E'.ec x = some s → E.ec x = some s
  listAt : ∀ e l, E'.listAt e = some l → E.listAt e = some l
  marks : E'.marks = E.marks
  verifies : ∀ ta i, E'.verifies ta i = true → E.verifies ta i = true
  fuzzy : E'.fuzzy = E.fuzzy

end Oidfed.Spec
