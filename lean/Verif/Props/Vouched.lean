import Verif.Spec.Vouched
import Verif.Props.Login
/-!
# C166: which providers users and codes are sent to
-/

namespace Oidfed
open Spec

theorem restrict_iss (types : List String) (s : Stmt) : (restrictTypes types s).iss = s.iss := by
  unfold restrictTypes
  split <;> rfl

theorem restrict_raw (types : List String) (s : Stmt) : (restrictTypes types s).raw = s.raw := by
  unfold restrictTypes
  split <;> rfl

/-- A chain with more than one statement vouches for the metadata that follows from it. -/
theorem vouched_of_produces {W : World} {anchors : List ID} {x : ID} {types : List String} {c : Chain} {m : Metadata}
    (h : Produces W ⟨anchors.map (fun a => ⟨a, none⟩), x, types⟩ c) (hm : chainMetadata c = .ok (some m))
    (hh : ∀ s0, W.start x = some s0 → s0.iss ∉ anchors ∧ s0.hints ≠ []) : VouchedMetadata W anchors x types m := by
  rcases C02_every_chain_anchored_partial _ _ _ h with ⟨hl, -, hs⟩ | ⟨s0, g1, -, ⟨a, ha, g2⟩ | g2⟩
  · have hlink := C01_chains_linked _ _ _ h hl
    obtain ⟨s0, steps, g1, _, st, _, rfl⟩ := produces_path h hl
    refine ⟨s0, _, g1, ?_, ?_, hm⟩
    · obtain ⟨leaf, subs, top, e, ⟨s, k1, k2⟩, k3⟩ := hlink
      obtain ⟨e1, e2⟩ := List.cons.inj e
      exact ⟨s0, subs, top, congrArg (s0 :: ·) e2, ⟨s, k1, by rw [k2, ← e1]; exact restrict_iss _ _⟩, k3⟩
    · intro s hs'
      rcases List.mem_cons.mp hs' with rfl | hs'
      · obtain ⟨keys, ks, r, k1, k2, k3, k4⟩ := hs _ List.mem_cons_self
        exact ⟨keys, ks, r, k1, k2, by rw [← k3]; exact (restrict_raw _ _).symm, k4⟩
      · exact hs s (List.mem_cons_of_mem _ hs')
  · obtain ⟨b, hb, rfl⟩ := List.mem_map.mp ha
    exact absurd (g2 ▸ hb) (hh s0 g1).1
  · exact absurd g2 (hh s0 g1).2

/-- **C166** for issuers that name an authority: a user is sent only to the endpoint, and with a request for the issuer, in provider metadata that follows from a trust chain
from the issuer to one of the relying party's anchors; a code is sent only to the token endpoint in such metadata. Missing: issuers that name no authority, for which it is
false (below), and other resolvers. -/
theorem C166_vouched_partial (id : ID) (E : Env) (fuel : Nat) (p : CallPos) (cache : ID → Res (Option OPMeta)) (anchors : List ID) (sign : Signer)
    (parse : URLParser) (post : String → AMap (List String) → Option JV) (now : Int) (jti : Option String) (issuer : ID) (redirectURI state scope code : String)
    (add : AMap (List String)) (hwf : add.WF) (params : Option (AMap (List String))) (ho : NoOverflow now 60) (hc : cache issuer = .ok none)
    (hh : ∀ s0, (E.world p).start issuer = some s0 → s0.iss ∉ anchors ∧ s0.hints ≠ []) :
    (∀ u, (newLeaf id).loginURL .loc E fuel p cache anchors sign parse now jti issuer redirectURI state scope add = some (.ok u) →
      ∃ m em, VouchedMetadata (E.world p) anchors issuer ["openid_provider"] m ∧ m.known .op = some em ∧
        ∀ i a, StrAttr em "issuer" i → StrAttr em "authorization_endpoint" a → SendsUser sign parse i a u) ∧
    ∀ x, (newLeaf id).exchangeCode .loc E fuel p cache anchors sign post now jti issuer code redirectURI params = some x → x.sent ≠ none →
      ∃ m em, VouchedMetadata (E.world p) anchors issuer ["openid_provider"] m ∧ m.known .op = some em ∧
        ∀ t, StrAttr em "token_endpoint" t → SendsCode sign t code x.sent := by
  constructor
  · intro u hu
    obtain ⟨m, em, h1, h2, h3⟩ := C127_login id .loc E fuel p cache anchors sign parse now jti issuer redirectURI state scope add hwf ho hc u hu
    obtain ⟨c, h4, h5⟩ := C127_chain E fuel p anchors issuer m h1
    exact ⟨m, em, vouched_of_produces h4 h5 hh, h2, h3⟩
  · intro x hx hs
    obtain ⟨m, em, h1, h2, h3⟩ := C127_exchange id .loc E fuel p cache anchors sign post now jti issuer code redirectURI params ho hc x hx hs
    obtain ⟨c, h4, h5⟩ := C127_chain E fuel p anchors issuer m h1
    exact ⟨m, em, vouched_of_produces h4 h5 hh, h2, h3⟩

/-- What somebody says who wants users to come: a provider, no authorities; nothing signed. -/
def Ex.evilOP : Stmt :=
  { Ex.mk "https://evil" "https://evil" none 1 with
    metadata := some ⟨fun t => if t = .op then some ⟨[⟨"Issuer", "issuer", .str, .str "https://evil"⟩, ⟨"AuthorizationEndpoint", "authorization_endpoint", .str, .str "https://evil/auth"⟩,
      ⟨"TokenEndpoint", "token_endpoint", .str, .str "https://evil/token"⟩], [], []⟩ else none, none⟩
    raw := none }

def Ex.EEvilOP : Env := { Ex.E with world := fun _ => { Ex.W with start := fun x => if x = "https://evil" then some Ex.evilOP else none, sig := fun _ _ => false } }

/-- A provider below the two intermediates of the example federation. -/
def Ex.EGoodOP : Env := { Ex.E with world := fun _ => { Ex.W with
  start := fun x => if x = "l" then some { Ex.leafEC with metadata := some ⟨fun t => if t = .op then some ⟨[⟨"Issuer", "issuer", .str, .str "https://op"⟩,
    ⟨"AuthorizationEndpoint", "authorization_endpoint", .str, .str "https://op/auth"⟩, ⟨"TokenEndpoint", "token_endpoint", .str, .str "https://op/token"⟩], [], []⟩ else none, none⟩ } else none
  fetch := fun _ ep sub _ => (Ex.fetchOf ep sub).map (fun s => { s with constraints := none }) } }

/-- Users are sent there, and codes. -/
example : (∃ u, (newLeaf "rp").loginURL .loc Ex.EGoodOP 1 [] (fun _ => .ok none) ["t"] (fun _ _ => some "jwt") (fun s => some ⟨s, []⟩) 1000 (some "r") "l" "https://rp/cb" "st" "openid"
      [] = some (.ok u) ∧ u.rest = "https://op/auth") ∧
    (∃ x, (newLeaf "rp").exchangeCode .loc Ex.EGoodOP 1 [] (fun _ => .ok none) ["t"] (fun _ _ => some "jwt") Ex.authenticating 1000 (some "r") "l" "c" "https://rp/cb" none = some x ∧
      x.sent ≠ none) ∧ ∀ s0, (Ex.EGoodOP.world []).start "l" = some s0 → s0.iss ∉ ["t"] ∧ s0.hints ≠ [] := by
  refine ⟨⟨_, rfl, rfl⟩, ⟨_, rfl, by intro h; cases h⟩, ?_⟩
  intro s0 h
  cases h
  decide

/-- **C166 fails**: a user is sent to the authorization endpoint, and the code to the token endpoint, of a provider that nobody vouches for: its configuration names no
authority and is not even signed. -/
theorem C166_vouched_refuted : ¬ ∀ (id : ID) (E : Env) (fuel : Nat) (p : CallPos) (cache : ID → Res (Option OPMeta)) (anchors : List ID) (sign : Signer)
    (parse : URLParser) (post : String → AMap (List String) → Option JV) (now : Int) (jti : Option String) (issuer : ID) (redirectURI state scope code : String)
    (add : AMap (List String)) (params : Option (AMap (List String))), issuer ∉ anchors → add.WF → NoOverflow now 60 → cache issuer = .ok none →
    (∀ u, (newLeaf id).loginURL .loc E fuel p cache anchors sign parse now jti issuer redirectURI state scope add = some (.ok u) →
      ∃ m, VouchedMetadata (E.world p) anchors issuer ["openid_provider"] m) ∨
    ∀ x, (newLeaf id).exchangeCode .loc E fuel p cache anchors sign post now jti issuer code redirectURI params = some x → x.sent ≠ none →
      ∃ m, VouchedMetadata (E.world p) anchors issuer ["openid_provider"] m := by
  intro h
  have none_vouched : ¬ ∃ m, VouchedMetadata (Ex.EEvilOP.world []) ["t"] "https://evil" ["openid_provider"] m := by
    rintro ⟨m, s0, rest, _, _, hs, _⟩
    obtain ⟨keys, ks, r, _, _, _, h4⟩ := hs s0 List.mem_cons_self
    revert h4
    simp [Ex.EEvilOP]
  rcases h "rp" Ex.EEvilOP 1 [] (fun _ => .ok none) ["t"] (fun _ _ => some "jwt") (fun s => some ⟨s, []⟩) Ex.authenticating 1000 (some "r") "https://evil" "https://rp/cb" "st" "openid"
    "c" [] none (by decide) (by simp [AMap.WF, AMap.keys]) (by unfold NoOverflow; decide) rfl with h | h
  · exact none_vouched (h _ rfl)
  · exact none_vouched (h _ rfl (by intro h; cases h))

end Oidfed
