import Verif.Model.Refresher
/-!
# What a user of a refreshed trust mark expects
-/

namespace Oidfed.Spec

open Oidfed

/-- Any two contacts with the issuer are at least a minute apart. -/
def OncePerMinute (attempts : List Time) : Prop :=
  ∀ (i j : Nat) (a b : Time), i ≠ j → attempts[i]? = some a → attempts[j]? = some b → 60000000000 ≤ (a - b : Int) ∨ 60000000000 ≤ (b - a : Int)

/-- The results of all calls that have returned. -/
def Returned (s : RSys) (r : CallResult) : Prop := RPC.done (some r) ∈ s.threads

/-- The call obtained the mark it returned, or the mark had, at some moment of the call, more than the minimum lifetime left. -/
def FreshEnough (cfg : RefreshConfig) (r : CallResult) : Prop :=
  r.obtained = some r.jwt ∨ ∃ t e : Time, r.start ≤ t ∧ t ≤ r.finish ∧ cfg.recorded r.jwt = some e ∧ (e - t : Int) > cfg.minLifetime

end Oidfed.Spec
