import Verif.Model.Policy
/-!
# The policy verifiers that exist but are not registered (`policyverifiers.go`)

`init` registers eight verifiers (`runVerifiers`); the registration of four more is commented out
(policyverifiers.go:243-246). They are modelled here to say what they would have guaranteed.
-/

namespace Oidfed

/-- `policyVerifyDefaultInSubset` (policyverifiers.go:127-144), not registered. -/
def vDefaultInSubset (p : Entry) : Res Unit := vSubset opDefault opSubsetOf p

/-- `policyVerifyDefaultInOneOf` (policyverifiers.go:171-188), not registered. -/
def vDefaultInOneOf (p : Entry) : Res Unit :=
  match p.get opOneOf, p.get opDefault with
  | some o, some d => if sliceContains d (slicify o) then .ok () else .error .error
  | _, _ => .ok ()

/-- `policyVerifyDefaultSuperset` (policyverifiers.go:190-207), not registered. -/
def vDefaultSuperset (p : Entry) : Res Unit :=
  match p.get opSupersetOf, p.get opDefault with
  | some s, some d => do
      let ok ← reflectIsSupersetOf d s
      if ok then .ok () else .error .error
  | _, _ => .ok ()

/-- `policyVerifySubsetOfStillHasValues` (policyverifiers.go:209-221), not registered. -/
def vSubsetNonempty (p : Entry) : Res Unit :=
  match p.get opSubsetOf with
  | none => .ok ()
  | some o =>
    match slicify o with
    | none => .error .error
    | some s => if s.xs.length == 0 then .error .error else .ok ()

/-- The four verifiers in the order of the commented lines (policyverifiers.go:243-246). -/
def unregisteredVerifiers (p : Entry) : Res Unit := do
  vDefaultInOneOf p
  vDefaultInSubset p
  vDefaultSuperset p
  vSubsetNonempty p

end Oidfed
