import Verif.Props.Jws
import Verif.Props.Resolver
/-!
# Signed JWTs in trust chains: C93, C94

The other models leave verification open. Here it is the verification of JWS with key sets, and what this means for the chains a resolver returns is
spelled out.
-/

namespace Oidfed
open Spec

/-- **C94**: verification of a statement, as the resolver uses it, is verification of its JWT with the key set. -/
theorem C94_statement_verify (C : Crypto) (keyOf : Nat → JKey) (msgOf : Nat → Jws) (keys : Keys) (s : Stmt) :
    s.verify (jwsOracle C keyOf msgOf) keys = (verifyWithSet C (keys.map (·.map keyOf)) (s.raw.map msgOf)).isSome := by
  unfold Stmt.verify verifyWithSet jwsOracle
  cases s.raw with
  | none => cases keys <;> rfl
  | some r =>
    cases keys with
    | none => rfl
    | some ks =>
      cases ks with
      | nil => rfl
      | cons k ks =>
        simp only [List.isEmpty_cons, Bool.not_false, Bool.true_and, Option.map_some, List.map_cons, Bool.false_eq_true, if_false]
        split <;> simp_all

/-- What `Signed` says about the JWT behind a statement: a key of the set made one of its signatures. -/
def JwtSignedBy (C : Crypto) (keyOf : Nat → JKey) (msgOf : Nat → Jws) (keys : Keys) (s : Stmt) : Prop :=
  ∃ ks r sg, keys = some ks ∧ s.raw = some r ∧ SignedBy C (ks.map keyOf) (msgOf r) sg

theorem signed_jwt {C : Crypto} {keyOf : Nat → JKey} {msgOf : Nat → Jws} {keys : Keys} {s : Stmt} (h : Signed (jwsOracle C keyOf msgOf) keys s) :
    JwtSignedBy C keyOf msgOf keys s := by
  obtain ⟨ks, r, h1, _, h3, h4⟩ := h
  obtain ⟨sg, _, hs⟩ := sigLoop_spec h4
  exact ⟨ks, r, sg, h1, h3, hs⟩

/-- **C94** in trust chains: in every chain of at least two statements a resolver returns, the JWT of each statement below the top pair has a signature by a key that the next
statement publishes, and the top two have signatures by the anchor's authoritative keys. -/
theorem C94_in_chains (C : Crypto) (keyOf : Nat → JKey) (msgOf : Nat → Jws) (W : World) (hW : W.sig = jwsOracle C keyOf msgOf) (r : Resolver) (c : Chain)
    (h : Produces W r c) (hl : 2 ≤ c.length) :
    (∀ k s next, k + 2 < c.length → c[k]? = some s → c[k+1]? = some next → JwtSignedBy C keyOf msgOf next.jwks s) ∧
    (∃ pre s top ta keys, c = pre ++ [s, top] ∧ FirstAnchor r.anchors top.iss ta ∧ AnchorKeys ta top keys ∧
      JwtSignedBy C keyOf msgOf keys s ∧ JwtSignedBy C keyOf msgOf keys top) := by
  obtain ⟨h1, pre, s, top, ta, keys, h2, h3, h4, h5, h6⟩ := C03_signed_by_superior_keys W r c h hl
  rw [hW] at h1 h5 h6
  exact ⟨fun k s next a b d => signed_jwt (h1 k s next a b d), pre, s, top, ta, keys, h2, h3, h4, signed_jwt h5, signed_jwt h6⟩

/-- The statement was parsed from a JWT that states the type of entity statements, as `ParseEntityStatement` requires. -/
def ParsedAsStatement (msgOf : Nat → Jws) (s : Stmt) : Prop := ∀ r, s.raw = some r → verifyType (msgOf r) "entity-statement+jwt" = true

/-- **C93** in trust chains (part): if the JWTs have one signature each, every statement of a returned chain below the top pair was signed as an entity statement by the holder of a key that
the next one publishes. -/
theorem C93_in_chains_partial (C : Crypto) (keyOf : Nat → JKey) (msgOf : Nat → Jws) (W : World) (hW : W.sig = jwsOracle C keyOf msgOf) (r : Resolver) (c : Chain)
    (h : Produces W r c) (hl : 2 ≤ c.length) (hp : ∀ s ∈ c, ParsedAsStatement msgOf s) (h1 : ∀ n, (msgOf n).sigs.length = 1)
    (k : Nat) (s next : Stmt) (hk : k + 2 < c.length) (hs : c[k]? = some s) (hn : c[k+1]? = some next) :
    ∃ n, s.raw = some n ∧ SignedAs C "entity-statement+jwt" (next.jwks.map (·.map keyOf)) (msgOf n) := by
  obtain ⟨ks, n, sg, h2, h3, h4⟩ := (C94_in_chains C keyOf msgOf W hW r c h hl).1 k s next hk hs hn
  refine ⟨n, h3, ks.map keyOf, sg, by rw [h2]; rfl, h4, ?_⟩
  have ht := hp s (List.mem_of_getElem? hs) n h3
  have hl := h1 n
  have hm := h4.1
  unfold verifyType at ht
  split at ht
  · cases ht
  · rename_i s' rest hr
    rw [hr] at hm hl
    simp only [List.length_cons, Nat.add_eq_right, List.length_eq_zero_iff] at hl
    subst hl
    rw [List.mem_singleton.mp hm]
    simpa using ht

/-- The example federation with JWTs: key `n` has id `kk…k` and signs message `n`. -/
def exKeyOf (n : Nat) : JKey := ⟨some (String.ofList (List.replicate n 'k')), some "sig", some "ES512", n⟩

/-- Message `n` is signed with key `n`. -/
def exMsgOf (n : Nat) : Jws := ⟨[], [⟨some "entity-statement+jwt", some (String.ofList (List.replicate n 'k')), some "ES512", n⟩]⟩

/-- The hypotheses are met: the example federation resolves with real JWT verification. -/
example : let W := { Ex.W with sig := jwsOracle exCrypto exKeyOf exMsgOf }
    Produces W Ex.R Ex.chainI ∧ 2 ≤ Ex.chainI.length ∧ (∀ s ∈ Ex.chainI, ParsedAsStatement exMsgOf s) ∧ ∀ n, (exMsgOf n).sigs.length = 1 :=
  ⟨⟨5, [Ex.chainI, Ex.chainJ], .inl rfl, by simp⟩, by decide, fun _ _ _ _ => rfl, fun _ => rfl⟩

end Oidfed
