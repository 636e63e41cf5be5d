import Verif.Model.Resolver
/-!
# One `TrustResolver` object over several calls (`trustresolver.go`)

The tree cache and the chains cache are left out: with the default cache they never serve anything (C34), with Redis see C34.
-/

namespace Oidfed

/-- A `TrustResolver` as an object (trustresolver.go:142-147): its exported fields, which the caller may change at any time, and the internal tree. -/
structure ResolverObj where
  r : Resolver
  tree : Tree

/-- `TrustResolver{…}` as a caller writes it. -/
def ResolverObj.fresh (r : Resolver) : ResolverObj := ⟨r, Tree.zero⟩

/-- `TrustResolver.Resolve` (trustresolver.go:201-227): the tree is replaced only after the starting configuration was obtained. `ok none` if the recursion
did not finish within the fuel. -/
def ResolverObj.resolve (W : World) (fuel : Nat) (o : ResolverObj) : Res (Option ResolverObj) :=
  if o.r.start == "" then .ok (some o)
  else match W.start o.r.start with
  | none => .ok (some o)
  | some s =>
    if s.metadata.isNone then .error .panic
    else .ok ((Oidfed.resolve W o.r.anchors fuel [] (rootPending (restrictTypes o.r.types s))).map (fun t => ⟨o.r, t⟩))

/-- `TrustResolver.VerifySignatures` (trustresolver.go:230-235). -/
def ResolverObj.verifySignatures (W : World) (o : ResolverObj) : ResolverObj := ⟨o.r, verifySigs W.sig o.r.anchors o.tree⟩

/-- `TrustResolver.Chains` (trustresolver.go:238-254). -/
def ResolverObj.chains (o : ResolverObj) : List Chain := Oidfed.chains o.tree

/-- `TrustResolver.ResolveToValidChainsWithoutVerifyingMetadata` (trustresolver.go:185-198): the chains and the object afterwards. -/
def ResolverObj.call (W : World) (fuel : Nat) (o : ResolverObj) : Res (Option (List Chain × ResolverObj)) := do
  let o' ← o.resolve W fuel
  .ok (o'.map (fun o' => ((o'.verifySignatures W).chains, o'.verifySignatures W)))

/-- What callers do with a resolver. -/
inductive ResolverUse where
  /-- assign to the exported fields -/
  | set (r : Resolver)
  /-- `Resolve()` -/
  | resolve (W : World) (fuel : Nat)
  /-- `VerifySignatures()` -/
  | verify (W : World)
  /-- `ResolveToValidChainsWithoutVerifyingMetadata()` or `ResolveToValidChains()` -/
  | call (W : World) (fuel : Nat)

/-- The object after a use. A panic, which the caller may recover from, leaves it as it was (trustresolver.go:215-222). A call that does not finish has no
afterwards; it is treated the same. -/
def ResolverObj.after (o : ResolverObj) : ResolverUse → ResolverObj
  | .set r => ⟨r, o.tree⟩
  | .resolve W fuel => match o.resolve W fuel with
    | .ok (some o') => o'
    | _ => o
  | .verify W => o.verifySignatures W
  | .call W fuel => match o.call W fuel with
    | .ok (some (_, o')) => o'
    | _ => o

end Oidfed
