import Verif.Model.Jws
/-!
# What is said about signed JWTs
-/

namespace Oidfed.Spec

/-- Signatures made with a private key verify with its public key, and only for known algorithms. -/
structure Scheme (C : Crypto) : Prop where
  correct : ∀ alg priv typ kid payload n, C.sign alg priv typ kid payload = some n →
    C.verify alg (C.pub priv) ⟨some typ, some kid, some alg, n⟩ payload = true
  known : ∀ alg priv typ kid payload n, C.sign alg priv typ kid payload = some n → C.known alg = true

/-- The holder of a key of the set signed this payload: one of the signatures verifies with a key of the set that is meant for signatures, under the key's
own algorithm or, if it states none, one that fits the key. -/
def SignedBy (C : Crypto) (ks : List JKey) (m : Jws) (s : JSig) : Prop :=
  s ∈ m.sigs ∧ ∃ k ∈ ks, s.kid.isSome ∧ k.kid = s.kid ∧ (k.use = none ∨ k.use = some "" ∨ k.use = some "sig") ∧
    ∃ alg, (k.alg = some alg ∨ (k.alg = none ∧ alg ∈ C.algs k.key)) ∧ C.verify alg k.key s m.payload = true

end Oidfed.Spec
