import Verif.Lemmas.AuthCode
import Verif.Props.MetaResolver
/-!
# C49, C50, C68-C73: the authorization code flow

All theorems hold for every signer, every random generator, every clock and every URL parser.
-/

namespace Oidfed
open Spec

namespace Ex

/-- A signer whose JWTs show which claims were signed. -/
def showSign : Signer := fun _ l => some (String.intercalate "," (l.map (fun kv => kv.1 ++ "=" ++ (match kv.2 with | .str s => s | _ => "?"))))

/-- Request values with claims a caller must not set. -/
def roValues : AMap JV :=
  [("aud", .str "https://op"), ("iss", .str "evil"), ("sub", .str "evil"), ("client_secret", .str "s"), ("nonce", .str "n"), ("exp", .num 0)]

def rop : ROProducer := ⟨"https://rp", 60⟩

end Ex

/-! ## C49 -/

/-- C49: a request without an `aud` is refused, and nothing is signed: the result does not depend on the signer. -/
theorem C49_refused_without_aud (P : ROProducer) (sign : Signer) (now : Int) (jti : Option String) (values : Option (AMap JV))
    (h : ∀ m, values = some m → m.get "aud" = none) : (P.requestObject sign now jti values).1 = none := by
  cases values with
  | none => rfl
  | some m => simp [ROProducer.requestObject, h m rfl]

example : (Ex.rop.requestObject Ex.showSign 1000 (some "r") (some [("scope", .str "openid")])).1 = none := by rfl

theorem requestObject_eq (P : ROProducer) (sign : Signer) (now : Int) (jti : Option String) (m : AMap JV)
    (ha : m.get "aud" ≠ none) :
    P.requestObject sign now jti (some m) =
      match (match (ro1 P.entityID m).get "jti" with
        | some _ => some (ro1 P.entityID m)
        | none => jti.map (fun j => (ro1 P.entityID m).put "jti" (.str j))) with
      | none => (none, some (ro1 P.entityID m))
      | some m2 => (sign "" (sortMembers (ro3 now (wrap64 (now + P.lifetime)) m2)), some (ro3 now (wrap64 (now + P.lifetime)) m2)) := by
  cases hh : m.get "aud" with
  | none => exact absurd hh ha
  | some v =>
    simp only [ROProducer.requestObject, hh, Option.isNone_some]
    rfl

/-- C49: with an `aud`, exactly the mandated claims are signed: the result is the signature of claims that are as required. Only if no
identifier is given and none can be generated there is an error. -/
theorem C49_claims (P : ROProducer) (sign : Signer) (now : Int) (jti : Option String) (m : AMap JV) (hwf : m.WF)
    (ha : m.get "aud" ≠ none) (hj : m.get "jti" ≠ none ∨ jti ≠ none) (ho : NoOverflow now P.lifetime) :
    ∃ claims, RequestClaims P.entityID now P.lifetime jti m claims ∧
      (P.requestObject sign now jti (some m)).1 = sign "" claims := by
  rw [requestObject_eq P sign now jti m ha]
  have hg : (ro1 P.entityID m).get "jti" = m.get "jti" := by rw [ro1_get]; rfl
  cases hm : m.get "jti" with
  | some v =>
    rw [hg, hm]
    exact ⟨_, ro_claims (ro1_wf hwf _) ho (fun _ _ => rfl) (fun w hw => by rw [hg]; exact hw)
      (fun hn => by rw [hm] at hn; cases hn), rfl⟩
  | none =>
    cases jti with
    | none => rcases hj with hj | hj
              · exact absurd hm hj
              · exact absurd rfl hj
    | some j =>
      rw [hg, hm]
      refine ⟨_, ro_claims (m2 := (ro1 P.entityID m).put "jti" (.str j)) (put_wf (ro1_wf hwf _) _ _) ho ?_ ?_ ?_, rfl⟩
      · intro k hk; rw [put_get, if_neg hk]
      · intro v hv; rw [hm] at hv; cases hv
      · intro _; exact ⟨j, rfl, by rw [put_get]; rfl⟩

/-- Without a given and a generated identifier there is no request object. -/
theorem C49_needs_identifier (P : ROProducer) (sign : Signer) (now : Int) (m : AMap JV) (hj : m.get "jti" = none) :
    (P.requestObject sign now none (some m)).1 = none := by
  by_cases ha : m.get "aud" = none
  · simp [ROProducer.requestObject, ha]
  · rw [requestObject_eq P sign now none m ha]
    have hg : (ro1 P.entityID m).get "jti" = m.get "jti" := by rw [ro1_get]; rfl
    rw [hg, hj]
    rfl

example : Ex.roValues.WF ∧ Ex.roValues.get "aud" ≠ none ∧ NoOverflow 1000 Ex.rop.lifetime :=
  ⟨by simp [AMap.WF, AMap.keys, Ex.roValues], (by intro h; cases h), by unfold NoOverflow; decide⟩

example : (Ex.rop.requestObject Ex.showSign 1000 (some "r") (some Ex.roValues)).1 =
    some "aud=https://op,client_id=https://rp,exp=?,iat=?,iss=https://rp,jti=r,nonce=n" := by decide

/-! ## C50, C68, C69 -/

namespace Ex

def opm : OPMeta := ⟨"https://op", "https://op/auth?tenant=x", "https://op/token"⟩

def urlParse : URLParser := fun s => if s = "https://op/auth?tenant=x" then some ⟨"https://op/auth", [("tenant", "x")]⟩ else none

/-- Additional parameters that try to override. -/
def addParams : AMap (List String) := [("redirect_uri", ["https://evil"]), ("client_id", ["evil"]), ("prompt", ["login"]), ("acr", ["a", "b"])]

end Ex

theorem paramValues_wf {add : AMap (List String)} (h : add.WF) : (paramValues add).WF := by
  unfold AMap.WF AMap.keys paramValues at *
  rw [List.map_map]
  exact h

theorem requestParams_wf {op : OPMeta} {r st sc : String} {add : AMap (List String)} (h : add.WF) : (requestParams op r st sc add).WF :=
  put_wf (put_wf (put_wf (put_wf (put_wf (paramValues_wf h) _ _) _ _) _ _) _ _) _ _

theorem requestParams_get (op : OPMeta) (r st sc : String) (add : AMap (List String)) (k : String) :
    (requestParams op r st sc add).get k =
      if k = "scope" then some (.str sc) else if k = "response_type" then some (.str "code") else if k = "state" then some (.str st) else
        if k = "redirect_uri" then some (.str r) else if k = "aud" then some (.str op.issuer) else (paramValues add).get k := by
  unfold requestParams
  rw [put_get, put_get, put_get, put_get, put_get]

theorem paramValues_get (add : AMap (List String)) (k : String) : (paramValues add).get k = (add.get k).map paramValue := by
  induction add with
  | nil => rfl
  | cons a l ih =>
    obtain ⟨k', v⟩ := a
    have : paramValues ((k', v) :: l) = (k', paramValue v) :: paramValues l := rfl
    rw [this, jget_cons, jget_cons, ih]
    split <;> rfl

/-- How a successful call came about. -/
theorem paramClaim_iff (l : List String) (v : JV) : ParamClaim l v ↔ v = paramValue l := by
  unfold ParamClaim
  match l with
  | [] => simp [paramValue]
  | [s] => simp [paramValue]
  | s :: t :: l => simp [paramValue]

theorem authorizationURL_ok {f : Leaf} {sign : Signer} {parse : URLParser} {now : Int} {jti : Option String} {op : Res (Option OPMeta)}
    {r st sc : String} {add : AMap (List String)} {u : URL} (h : f.authorizationURL sign parse now jti op r st sc add = .ok u) :
    ∃ opm u0 ro, op = .ok (some opm) ∧ parse opm.authorizationEndpoint = some u0 ∧
      (f.rop.requestObject sign now jti (some (requestParams opm r st sc add))).1 = some ro ∧
      u = { u0 with query := [("client_id", f.entityID), ("redirect_uri", r), ("request", ro), ("response_type", "code"), ("scope", sc)] } := by
  unfold Leaf.authorizationURL at h
  cases op with
  | error e => cases h
  | ok o =>
    cases o with
    | none => cases h
    | some opm =>
      simp only at h
      split at h
      · cases h
      · rename_i ro hro
        split at h
        · cases h
        · rename_i u0 hu
          exact ⟨opm, u0, ro, rfl, hu, hro, (Except.ok.inj h).symm⟩

/-- C50: whatever the caller passes as additional parameters, the query consists of exactly the five protocol parameters, each once, with the values the
library determines; and the request object has the library's values for the protocol claims, all other claims being what the caller
passed. -/
theorem C50_protocol_parameters (id : ID) (sign : Signer) (parse : URLParser) (now : Int) (jti : Option String) (op : Res (Option OPMeta))
    (redirectURI state scope : String) (add : AMap (List String)) (hwf : add.WF) (ho : NoOverflow now 60) (u : URL)
    (h : (newLeaf id).authorizationURL sign parse now jti op redirectURI state scope add = .ok u) :
    ∃ opm ro claims, op = .ok (some opm) ∧ (u.query.map Prod.fst).Nodup ∧
      (∀ k v, (k, v) ∈ u.query ↔ (k = "client_id" ∧ v = id) ∨ (k = "response_type" ∧ v = "code") ∨ (k = "redirect_uri" ∧ v = redirectURI) ∨
        (k = "scope" ∧ v = scope) ∨ (k = "request" ∧ v = ro)) ∧
      sign "" claims = some ro ∧
      OnlyMember claims "iss" (.str id) ∧ OnlyMember claims "client_id" (.str id) ∧ OnlyMember claims "aud" (.str opm.issuer) ∧
      OnlyMember claims "response_type" (.str "code") ∧ OnlyMember claims "redirect_uri" (.str redirectURI) ∧
      OnlyMember claims "scope" (.str scope) ∧ OnlyMember claims "state" (.str state) ∧ NoMember claims "sub" ∧ NoMember claims "client_secret" ∧
      OnlyMember claims "iat" (.num now) ∧ OnlyMember claims "exp" (.num ((now + 60 : Int) : Rat)) ∧
      (∀ k, k ∉ mandated ++ ["aud", "response_type", "redirect_uri", "scope", "state"] → ∀ v,
        OnlyMember claims k v ↔ ∃ l, add.get k = some l ∧ ParamClaim l v) := by
  obtain ⟨opm, u0, ro, hop, hu0, hro, rfl⟩ := authorizationURL_ok h
  have hwf' := requestParams_wf (op := opm) (r := redirectURI) (st := state) (sc := scope) hwf
  have haud : (requestParams opm redirectURI state scope add).get "aud" ≠ none := by rw [requestParams_get]; intro hc; cases hc
  have hj : (requestParams opm redirectURI state scope add).get "jti" ≠ none ∨ jti ≠ none := by
    by_cases h1 : (requestParams opm redirectURI state scope add).get "jti" = none
    · refine Or.inr ?_
      rintro rfl
      rw [C49_needs_identifier _ _ _ _ h1] at hro
      cases hro
    · exact Or.inl h1
  obtain ⟨claims, hc, hs⟩ := C49_claims (newLeaf id).rop sign now jti _ hwf' haud hj ho
  rw [hs] at hro
  have hother := fun k (hk : k ∉ mandated) v => hc.others k hk v
  refine ⟨opm, ro, claims, hop, ?_, ?_, hro, hc.iss, hc.client_id, ?_, ?_, ?_, ?_, ?_, hc.no_sub, hc.no_secret, hc.iat, hc.exp, ?_⟩
  · show ["client_id", "redirect_uri", "request", "response_type", "scope"].Nodup
    decide
  · intro k v
    simp only [List.mem_cons, Prod.mk.injEq, List.not_mem_nil, or_false]
    constructor
    · rintro (h | h | h | h | h)
      · exact Or.inl h
      · exact Or.inr (Or.inr (Or.inl h))
      · exact Or.inr (Or.inr (Or.inr (Or.inr h)))
      · exact Or.inr (Or.inl h)
      · exact Or.inr (Or.inr (Or.inr (Or.inl h)))
    · rintro (h | h | h | h | h)
      · exact Or.inl h
      · exact Or.inr (Or.inr (Or.inr (Or.inl h)))
      · exact Or.inr (Or.inl h)
      · exact Or.inr (Or.inr (Or.inr (Or.inr h)))
      · exact Or.inr (Or.inr (Or.inl h))
  · rw [hother _ (by decide), requestParams_get]; rfl
  · rw [hother _ (by decide), requestParams_get]; rfl
  · rw [hother _ (by decide), requestParams_get]; rfl
  · rw [hother _ (by decide), requestParams_get]; rfl
  · rw [hother _ (by decide), requestParams_get]; rfl
  · intro k hk v
    simp only [List.mem_append, not_or, List.mem_cons, List.not_mem_nil, or_false] at hk
    obtain ⟨hk, h1, h2, h3, h4, h5⟩ := hk
    rw [hother k hk, requestParams_get, if_neg h4, if_neg h2, if_neg h5, if_neg h3, if_neg h1, paramValues_get]
    cases add.get k with
    | none => simp
    | some l => simp [eq_comm, paramClaim_iff]

example : Ex.addParams.WF ∧ NoOverflow 1000 60 ∧ (newLeaf "https://rp").authorizationURL (fun _ _ => some "jwt") Ex.urlParse 1000 (some "r")
    (.ok (some Ex.opm)) "https://rp/cb" "st" "openid" Ex.addParams = .ok ⟨"https://op/auth", [("client_id", "https://rp"),
      ("redirect_uri", "https://rp/cb"), ("request", "jwt"), ("response_type", "code"), ("scope", "openid")]⟩ :=
  ⟨by simp [AMap.WF, AMap.keys, Ex.addParams], by unfold NoOverflow; decide, by rfl⟩

/-- C68: everything of the authorization endpoint's URL except the query is kept. Missing: the query, which is lost (below). -/
theorem C68_endpoint_kept_partial (f : Leaf) (sign : Signer) (parse : URLParser) (now : Int) (jti : Option String) (opm : OPMeta)
    (redirectURI state scope : String) (add : AMap (List String)) (u u0 : URL) (hp : parse opm.authorizationEndpoint = some u0)
    (h : f.authorizationURL sign parse now jti (.ok (some opm)) redirectURI state scope add = .ok u) : u.rest = u0.rest := by
  obtain ⟨opm', u1, ro, hop, hu, _, rfl⟩ := authorizationURL_ok h
  cases hop
  rw [hp] at hu
  cases hu
  rfl

/-- C68 is false: query parameters of the OP's authorization endpoint are dropped. -/
theorem C68_endpoint_query_refuted : ¬ ∀ (f : Leaf) (sign : Signer) (parse : URLParser) (now : Int) (jti : Option String) (opm : OPMeta)
    (redirectURI state scope : String) (add : AMap (List String)) (u u0 : URL), parse opm.authorizationEndpoint = some u0 →
    f.authorizationURL sign parse now jti (.ok (some opm)) redirectURI state scope add = .ok u → ∀ kv ∈ u0.query, kv ∈ u.query := by
  intro h
  have := h (newLeaf "https://rp") (fun _ _ => some "jwt") Ex.urlParse 1000 (some "r") Ex.opm "https://rp/cb" "st" "openid" [] _ _ rfl rfl
    ("tenant", "x") (by decide)
  revert this
  decide

/-- C69: there is no panic if the metadata found has an `openid_provider` part. Missing: the case that it has not. -/
theorem C69_no_panic_partial (f : Leaf) (sign : Signer) (parse : URLParser) (post : String → AMap (List String) → Option JV) (now : Int)
    (jti : Option String) (op : Res (Option OPMeta)) (hop : op ≠ .error .panic) (hop' : op ≠ .ok none) (redirectURI state scope code : String)
    (add : AMap (List String)) (params : Option (AMap (List String))) :
    f.authorizationURL sign parse now jti op redirectURI state scope add ≠ .error .panic ∧
    (f.codeExchange sign post now jti op code redirectURI params).result ≠ .error .panic := by
  cases op with
  | error e =>
    cases e with
    | panic => exact absurd rfl hop
    | error => exact ⟨(by intro h; cases h), (by intro h; cases h)⟩
  | ok o =>
    cases o with
    | none => exact absurd rfl hop'
    | some opm =>
      constructor
      · simp only [Leaf.authorizationURL]
        split
        · intro h; cases h
        · split
          · intro h; cases h
          · intro h; cases h
      · simp only [Leaf.codeExchange]
        split
        · intro h; cases h
        · simp only
          split
          · intro h; cases h
          · intro h; cases h

example : (.ok (some Ex.opm) : Res (Option OPMeta)) ≠ .error .panic ∧ (.ok (some Ex.opm) : Res (Option OPMeta)) ≠ .ok none :=
  ⟨(by intro h; cases h), (by intro h; cases h)⟩

/-- The metadata found for the leaf `l` of the example federation, which is no OP, when asked for an OP: there is a valid trust chain, and the metadata
restricted to `openid_provider` is empty. -/
theorem Ex.noOP : ∃ c m, localChain Ex.E [] (opRequest "l" ["t"]) = some (.ok (c, some m)) ∧ m.known .op = none := ⟨_, _, rfl, rfl⟩

/-- C69 is false: authorizing with an entity of the federation that is no OP panics (authcode.go:140, 182: nil metadata). -/
theorem C69_no_panic_refuted : ¬ ∀ (E : Env) (q : Req) (c : Chain) (m : Option Metadata) (f : Leaf) (sign : Signer) (parse : URLParser)
    (post : String → AMap (List String) → Option JV) (now : Int)
    (jti : Option String) (redirectURI state scope code : String) (add : AMap (List String)) (params : Option (AMap (List String))),
    localChain E [] q = some (.ok (c, m)) → q.types = ["openid_provider"] →
    f.authorizationURL sign parse now jti (resolveOPMetadata (.ok none) (.ok m)) redirectURI state scope add ≠ .error .panic ∧
    (f.codeExchange sign post now jti (resolveOPMetadata (.ok none) (.ok m)) code redirectURI params).result ≠ .error .panic := by
  intro h
  obtain ⟨c, m, hc, hm⟩ := Ex.noOP
  have := (h Ex.E _ c (some m) (newLeaf "r") (fun _ _ => none) (fun _ => none) (fun _ _ => none) 0 none "" "" "" "" [] none hc rfl).1
  apply this
  simp [resolveOPMetadata, hm, Leaf.authorizationURL]

/-! ## C70, C71 -/

/-- Two request objects made one after the other from the same map of the caller. -/
def ROProducer.twice (P : ROProducer) (sign : Signer) (now : Int) (jti1 jti2 : Option String) (m : AMap JV) : Option String × Option String :=
  let r1 := P.requestObject sign now jti1 (some m)
  (r1.1, (P.requestObject sign now jti2 r1.2).1)

/-- The identifier of a signed JWT can be read in it. -/
def ReadsJti (sign : Signer) (read : String → String) : Prop :=
  ∀ l jwt j, sign "" l = some jwt → AMap.get l "jti" = some (.str j) → read jwt = j

/-- C70 is false: the identifier generated for the first request object is stored in the caller's map and used for the second one. -/
theorem C70_fresh_identifier_refuted : ¬ ∀ (P : ROProducer) (sign : Signer) (read : String → String) (now : Int) (j1 j2 : String) (m : AMap JV)
    (jwt1 jwt2 : String), ReadsJti sign read → m.WF → m.get "jti" = none → j1 ≠ j2 →
    P.twice sign now (some j1) (some j2) m = (some jwt1, some jwt2) → read jwt1 ≠ read jwt2 := by
  intro h
  refine h Ex.rop (fun _ l => some (strOf (AMap.get l "jti"))) id 1000 "r" "s" Ex.roValues "r" "r" ?_ ?_ rfl (by decide) (by rfl) rfl
  · intro l jwt j hs hj
    have hs' : strOf (AMap.get l "jti") = jwt := Option.some.inj hs
    rw [hj] at hs'
    exact hs'.symm
  · simp [AMap.WF, AMap.keys, Ex.roValues]

/-- C70 for authorization URLs: with different random identifiers, and none given by the caller, the request objects have different
identifiers. Missing: calling `RequestObject` directly with one map, for which it is false. -/
theorem C70_fresh_identifier_partial (id : ID) (sign : Signer) (read : String → String) (parse : URLParser) (now1 now2 : Int) (j1 j2 : String)
    (op : Res (Option OPMeta)) (redirectURI1 redirectURI2 state1 state2 scope1 scope2 : String) (add : AMap (List String)) (hwf : add.WF)
    (ho1 : NoOverflow now1 60) (ho2 : NoOverflow now2 60) (u1 u2 : URL) (hr : ReadsJti sign read) (hn : add.get "jti" = none) (hj : j1 ≠ j2)
    (h1 : (newLeaf id).authorizationURL sign parse now1 (some j1) op redirectURI1 state1 scope1 add = .ok u1)
    (h2 : (newLeaf id).authorizationURL sign parse now2 (some j2) op redirectURI2 state2 scope2 add = .ok u2)
    (ro1 ro2 : String) (hq1 : ("request", ro1) ∈ u1.query) (hq2 : ("request", ro2) ∈ u2.query) : read ro1 ≠ read ro2 := by
  have key : ∀ (now : Int) (j r st sc : String) (u : URL) (ro : String), NoOverflow now 60 →
      (newLeaf id).authorizationURL sign parse now (some j) op r st sc add = .ok u → ("request", ro) ∈ u.query → read ro = j := by
    intro now j r st sc u ro ho h hq
    obtain ⟨opm, u0, ro', hop, hu0, hro, rfl⟩ := authorizationURL_ok h
    have e : ro' = ro := by
      simpa [eq_comm] using hq
    subst e
    have haud : (requestParams opm r st sc add).get "aud" ≠ none := by rw [requestParams_get]; intro hc; cases hc
    obtain ⟨claims, hc, hs⟩ := C49_claims (newLeaf id).rop sign now (some j) _ (requestParams_wf hwf) haud (Or.inr (by intro h; cases h)) ho
    rw [hs] at hro
    have hnj : (requestParams opm r st sc add).get "jti" = none := by
      rw [requestParams_get, paramValues_get, hn]; rfl
    obtain ⟨j', hj', hm⟩ := hc.jti_fresh hnj
    cases hj'
    exact hr _ _ _ hro (only_get hm)
  rw [key _ _ _ _ _ _ _ ho1 h1 hq1, key _ _ _ _ _ _ _ ho2 h2 hq2]
  exact hj

example : ∃ u1 u2, (newLeaf "rp").authorizationURL (fun _ l => some (strOf (AMap.get l "jti"))) Ex.urlParse 1 (some "a") (.ok (some Ex.opm)) "" "" "" Ex.addParams = .ok u1 ∧
    (newLeaf "rp").authorizationURL (fun _ l => some (strOf (AMap.get l "jti"))) Ex.urlParse 1 (some "b") (.ok (some Ex.opm)) "" "" "" Ex.addParams = .ok u2 ∧
    ("request", "a") ∈ u1.query ∧ ("request", "b") ∈ u2.query := ⟨_, _, rfl, rfl, by decide, by decide⟩

/-- C71 is false for `RequestObject`: it changes the caller's map. -/
theorem C71_request_values_refuted : ¬ ∀ (P : ROProducer) (sign : Signer) (now : Int) (jti : Option String) (m : AMap JV) (k : String), m.WF →
    ((P.requestObject sign now jti (some m)).2.getD []).get k = m.get k := by
  intro h
  have := h Ex.rop (fun _ _ => none) 0 none Ex.roValues "sub" (by simp [AMap.WF, AMap.keys, Ex.roValues])
  cases this

/-- C71 is false for `CodeExchange`: the caller's parameters afterwards contain the code and the client assertion. -/
theorem C71_exchange_parameters_refuted : ¬ ∀ (f : Leaf) (sign : Signer) (post : String → AMap (List String) → Option JV) (now : Int)
    (jti : Option String) (op : Res (Option OPMeta)) (code redirectURI : String) (m : AMap (List String)) (k : String), m.WF →
    ((f.codeExchange sign post now jti op code redirectURI (some m)).caller.getD []).get k = m.get k := by
  intro h
  have := h (newLeaf "rp") (fun _ _ => some "jwt") (fun _ _ => none) 0 (some "j") (.ok (some Ex.opm)) "c" "r" [] "client_assertion" (by simp [AMap.WF, AMap.keys])
  cases this

/-- C71: what `CodeExchange` and `RequestObject` leave alone: values under names that the protocol does not use, and a nil map. Missing: the other names,
for which it is false. -/
theorem C71_other_names_partial (f : Leaf) (sign : Signer) (post : String → AMap (List String) → Option JV) (now : Int)
    (jti : Option String) (op : Res (Option OPMeta)) (code redirectURI : String) (params : Option (AMap (List String))) (values : Option (AMap JV))
    (k : String) :
    (k ∉ ["grant_type", "code", "redirect_uri", "client_id", "client_assertion_type", "client_assertion"] →
      ((f.codeExchange sign post now jti op code redirectURI params).caller.map (fun m => m.get k)) = params.map (fun m => m.get k)) ∧
    (k ∉ mandated → ((f.rop.requestObject sign now jti values).2.map (fun m => m.get k)) = values.map (fun m => m.get k)) := by
  constructor
  · intro hk
    simp only [List.mem_cons, List.not_mem_nil, or_false, not_or] at hk
    obtain ⟨h1, h2, h3, h4, h5, h6⟩ := hk
    have he : ∀ m, (exchangeParams f code redirectURI (some m)).get k = m.get k := by
      intro m
      unfold exchangeParams
      rw [put_get, put_get, put_get, put_get, if_neg h4, if_neg h3, if_neg h2, if_neg h1]
      rfl
    have ha : ∀ m a, (assertedParams m a).get k = m.get k := by
      intro m a
      unfold assertedParams
      rw [put_get, put_get, if_neg h6, if_neg h5]
    cases op with
    | error e => rfl
    | ok o =>
      cases params with
      | none =>
        cases o with
        | none => rfl
        | some opm =>
          simp only [Leaf.codeExchange]
          split <;> rfl
      | some m =>
        cases o with
        | none => simp [Leaf.codeExchange, he]
        | some opm =>
          simp only [Leaf.codeExchange]
          split
          · simp [he]
          · simp [he, ha]
  · intro hk
    simp only [mandated, List.mem_cons, List.not_mem_nil, or_false, not_or] at hk
    obtain ⟨h1, h2, h3, h4, h5, h6, h7⟩ := hk
    cases values with
    | none => rfl
    | some m =>
      have hr1 : (ro1 f.rop.entityID m).get k = m.get k := by
        rw [ro1_get, if_neg h4, if_neg h3, if_neg h2, if_neg h1]
      by_cases hau : m.get "aud" = none
      · simp [ROProducer.requestObject, hau]
      · rw [requestObject_eq _ _ _ _ _ hau]
        cases (ro1 f.rop.entityID m).get "jti" with
        | some v => simp [ro3_get, h5, h6, hr1]
        | none =>
          cases jti with
          | none => simp [hr1]
          | some j => simp [ro3_get, h5, h6, put_get, h7, hr1]

/-! ## C72, C73 -/

theorem exchangeParams_get (f : Leaf) (code r : String) (params : Option (AMap (List String))) (a k : String) :
    (assertedParams (exchangeParams f code r params) a).get k =
      if k = "client_assertion" then some [a] else
      if k = "client_assertion_type" then some ["urn:ietf:params:oauth:client-assertion-type:jwt-bearer"] else
      if k = "client_id" then some [f.entityID] else if k = "redirect_uri" then some [r] else if k = "code" then some [code] else
      if k = "grant_type" then some ["authorization_code"] else (params.getD []).get k := by
  unfold assertedParams exchangeParams
  rw [put_get, put_get, put_get, put_get, put_get, put_get]

/-- C72: what is sent in a code exchange, for all caller parameters: to the OP's token endpoint and nowhere else, with the protocol parameters as the
library determines them, authenticated by a fresh assertion for that endpoint; all other parameters as the caller gave them. -/
theorem C72_exchange_request (id : ID) (sign : Signer) (post : String → AMap (List String) → Option JV) (now : Int) (jti : Option String)
    (op : Res (Option OPMeta)) (code redirectURI : String) (params : Option (AMap (List String))) (ho : NoOverflow now 60) (endpoint : String)
    (form : AMap (List String))
    (h : ((newLeaf id).codeExchange sign post now jti op code redirectURI params).sent = some (endpoint, form)) :
    ∃ opm j assertion claims, op = .ok (some opm) ∧ endpoint = opm.tokenEndpoint ∧ jti = some j ∧
      form.get "grant_type" = some ["authorization_code"] ∧ form.get "code" = some [code] ∧ form.get "redirect_uri" = some [redirectURI] ∧
      form.get "client_id" = some [id] ∧
      form.get "client_assertion_type" = some ["urn:ietf:params:oauth:client-assertion-type:jwt-bearer"] ∧
      form.get "client_assertion" = some [assertion] ∧ sign "" claims = some assertion ∧
      AssertionClaims id now 60 j opm.tokenEndpoint claims ∧
      ∀ k, k ∉ ["grant_type", "code", "redirect_uri", "client_id", "client_assertion_type", "client_assertion"] →
        form.get k = (params.getD []).get k := by
  cases op with
  | error e => cases h
  | ok o =>
    cases o with
    | none => cases h
    | some opm =>
      simp only [Leaf.codeExchange] at h
      split at h
      · cases h
      · rename_i a ha
        simp only [Option.some.injEq, Prod.mk.injEq] at h
        obtain ⟨rfl, rfl⟩ := h
        cases jti with
        | none => cases ha
        | some j =>
          simp only [ROProducer.clientAssertion] at ha
          have hw : wrap64 (now + (newLeaf id).rop.lifetime) = now + 60 := wrap64_id ho.1 ho.2
          rw [hw] at ha
          refine ⟨opm, j, a, _, rfl, rfl, rfl, ?_, ?_, ?_, ?_, ?_, ?_, ha, ?_, ?_⟩
          · rw [exchangeParams_get]; rfl
          · rw [exchangeParams_get]; rfl
          · rw [exchangeParams_get]; rfl
          · rw [exchangeParams_get]; rfl
          · rw [exchangeParams_get]; rfl
          · rw [exchangeParams_get]; rfl
          · have hwf : AMap.WF [("iss", JV.str id), ("sub", JV.str id), ("iat", JV.num (now : Rat)), ("exp", JV.num ((now + 60 : Int) : Rat)),
                ("aud", JV.str opm.tokenEndpoint), ("jti", JV.str j)] := by
              show ["iss", "sub", "iat", "exp", "aud", "jti"].Nodup
              decide
            constructor
            · exact sort_only hwf rfl
            · exact sort_only hwf rfl
            · exact sort_only hwf rfl
            · exact sort_only hwf rfl
            · exact sort_only hwf rfl
            · exact sort_only hwf rfl
            · intro kv hkv
              have := (sortMembers_perm _).mem_iff.mp hkv
              simp only [List.mem_cons, List.not_mem_nil, or_false] at this
              rcases this with rfl | rfl | rfl | rfl | rfl | rfl <;> simp
          · intro k hk
            simp only [List.mem_cons, List.not_mem_nil, or_false, not_or] at hk
            obtain ⟨h1, h2, h3, h4, h5, h6⟩ := hk
            rw [exchangeParams_get, if_neg h6, if_neg h5, if_neg h4, if_neg h3, if_neg h2, if_neg h1]

example : ∃ form, ((newLeaf "rp").codeExchange Ex.showSign (fun _ _ => none) 1000 (some "r") (.ok (some Ex.opm)) "c" "https://rp/cb"
    (some [("code", ["evil"]), ("resource", ["a"])])).sent = some ("https://op/token", form) ∧ form.get "code" = some ["c"] ∧
    form.get "resource" = some ["a"] := ⟨_, rfl, rfl, rfl⟩

/-- C72: what `CodeExchange` returns is read from the answer to the request that was sent, with everything C72 says about it; if nothing was sent nothing is
returned. -/
theorem C72_answer_read (f : Leaf) (sign : Signer) (post : String → AMap (List String) → Option JV) (now : Int) (jti : Option String)
    (op : Res (Option OPMeta)) (code redirectURI : String) (params : Option (AMap (List String))) :
    (∀ endpoint form, (f.codeExchange sign post now jti op code redirectURI params).sent = some (endpoint, form) → ∀ r,
      (f.codeExchange sign post now jti op code redirectURI params).result = .ok r ↔ readTokenResponse (post endpoint form) = some r) ∧
    ((f.codeExchange sign post now jti op code redirectURI params).sent = none → ∀ r,
      (f.codeExchange sign post now jti op code redirectURI params).result ≠ .ok r) := by
  cases op with
  | error e => exact ⟨fun _ _ h => (by cases h), fun _ r h => (by cases h)⟩
  | ok o =>
    cases o with
    | none => exact ⟨fun _ _ h => (by cases h), fun _ r h => (by cases h)⟩
    | some opm =>
      simp only [Leaf.codeExchange]
      cases f.rop.clientAssertion sign now jti opm.tokenEndpoint with
      | none => exact ⟨fun _ _ h => (by cases h), fun _ r h => (by cases h)⟩
      | some a =>
        refine ⟨?_, fun h => (by cases h)⟩
        intro endpoint form h r
        simp only [Option.some.injEq, Prod.mk.injEq] at h
        obtain ⟨rfl, rfl⟩ := h
        dsimp only
        cases readTokenResponse (post opm.tokenEndpoint (assertedParams (exchangeParams f code redirectURI params) a)) with
        | none => exact ⟨fun h => (by cases h), fun h => (by cases h)⟩
        | some r' => simp

/-- An OP that gives a token only to a request that is authenticated. -/
def Ex.authenticating : String → AMap (List String) → Option JV := fun _ form =>
  if (form.get "client_assertion").isSome then some (.obj [("access_token", .str "at")]) else some (.obj [("error", .str "invalid_client")])

example : ∃ t, ((newLeaf "rp").codeExchange Ex.showSign Ex.authenticating 1000 (some "r") (.ok (some Ex.opm)) "c" "https://rp/cb" none).result = .ok (.token t) ∧
    t.known "access_token" = some (.str "at") := ⟨_, rfl, rfl⟩

/-- C73: if the OP's answer has an `error` that is a non-empty string, no token response is returned; if it can be read the error is. -/
theorem C73_error_reported (l : JObj) (e : String) (he : OnlyMember l "error" (.str e)) (hne : e ≠ "")
    (hfold : ∀ kv ∈ l, ¬ Apart kv.1 "error" → kv.1 = "error") :
    readTokenResponse (some (.obj l)) = none ∨ readTokenResponse (some (.obj l)) = some (.oidcError e) := by
  simp only [readTokenResponse, Option.bind_some, bodyMembers]
  cases hu : unmarshalObj errorTags errorDec l with
  | none => exact Or.inl rfl
  | some o =>
    right
    have hd := decode_only (unmarshal_some hu).1 he (by decide) (fun kv hkv hf => hfold kv hkv (fun ha => ha (fieldFor_some hf).2.symm))
    have : o.known "error" = some (.str e) := by
      simpa [errorDec, decString] using hd.symm
    simp [this, strOf, hne]

/-- C73: an answer without an `error` never is reported as one. -/
theorem C73_no_invented_error (l : JObj) (h : ∀ kv ∈ l, Apart kv.1 "error") (e : String) :
    readTokenResponse (some (.obj l)) ≠ some (.oidcError e) := by
  simp only [readTokenResponse, Option.bind_some, bodyMembers]
  cases hu : unmarshalObj errorTags errorDec l with
  | none => simp
  | some o =>
    have hd := decode_other (t := "error") (unmarshal_some hu).1 (fun kv hkv hf => h kv hkv (fieldFor_some hf).2.symm)
    simp only [hd, strOf]
    cases unmarshalObj tokenTags tokenDec l <;> simp

/-- C73: the fields of a returned token response are the members of the OP's answer, and all other members are in `Extra`. -/
theorem C73_token_fields (l : JObj) (t : JStruct) (h : readTokenResponse (some (.obj l)) = some (.token t)) (k : String) (v : JV)
    (hv : OnlyMember l k v) (hnull : v ≠ .null) (hfold : ∀ kv ∈ l, ¬ Apart kv.1 k → kv.1 = k) :
    (k ∈ tokenFields → t.known k = some v) ∧ (k ∉ tokenFields → t.extra.get k = some v) := by
  have htags : tokenFields = tokenTags := rfl
  rw [htags]
  simp only [readTokenResponse, Option.bind_some, bodyMembers] at h
  cases hu : unmarshalObj errorTags errorDec l with
  | none => rw [hu] at h; cases h
  | some o =>
    rw [hu] at h
    simp only at h
    split at h
    · cases h
    · cases hu2 : unmarshalObj tokenTags tokenDec l with
      | none => rw [hu2] at h; cases h
      | some t' =>
        rw [hu2] at h
        cases h
        have hs := unmarshal_some hu2
        constructor
        · intro hk
          have hd := decode_only hs.1 hv hk (fun kv hkv hf => hfold kv hkv (fun ha => ha (fieldFor_some hf).2.symm))
          unfold tokenDec decString at hd
          split at hd
          · cases v <;> simp_all
          · cases v <;> simp_all
        · intro hk
          rw [hs.2, jget_filter (p := fun x => !(tokenTags.contains x)), objMap_get]
          have : lastMember l k = some v := (lastMember_iff l k v).mpr (by
            obtain ⟨pre, post, h1, _, h3⟩ := hv
            exact ⟨pre, post, h1, h3⟩)
          simp [hk, this]

theorem decode_types {tags : List String} {dec : FieldDec} {P : String → JV → Prop}
    (hd : ∀ t cur v w, (∀ x, cur = some x → P t x) → dec t cur v = some (some w) → P t w) : ∀ {l : JObj} {f g : String → Option JV},
    (∀ t x, f t = some x → P t x) → decodeKnown tags dec l f = some g → ∀ t x, g t = some x → P t x := by
  intro l
  induction l with
  | nil => intro f g hf h; cases h; exact hf
  | cons a l ih =>
    obtain ⟨k, v⟩ := a
    intro f g hf h
    simp only [decodeKnown] at h
    split at h
    · exact ih hf h
    · rename_i t ht
      split at h
      · cases h
      · rename_i w hw
        refine ih ?_ h
        intro t' x hx
        by_cases e : t' = t
        · subst e
          simp only [if_true] at hx
          subst hx
          exact hd t' (f t') v x (hf t') hw
        · rw [if_neg e] at hx
          exact hf t' x hx

/-- C73: a returned token response has the types of the API: `expires_in` is a 64 bit integer, the other fields are strings. -/
theorem C73_types (body : Option JV) (t : JStruct) (h : readTokenResponse body = some (.token t)) (k : String) (v : JV) (hv : t.known k = some v) :
    (k = "expires_in" ∧ ∃ i : Int, v = .num i ∧ -2 ^ 63 ≤ i ∧ i < 2 ^ 63) ∨ (k ≠ "expires_in" ∧ ∃ s, v = .str s) := by
  have hdec : ∀ t cur v w, (∀ x, cur = some x → (t = "expires_in" ∧ ∃ i : Int, x = .num i ∧ -2 ^ 63 ≤ i ∧ i < 2 ^ 63) ∨ (t ≠ "expires_in" ∧ ∃ s, x = .str s)) →
      tokenDec t cur v = some (some w) → (t = "expires_in" ∧ ∃ i : Int, w = .num i ∧ -2 ^ 63 ≤ i ∧ i < 2 ^ 63) ∨ (t ≠ "expires_in" ∧ ∃ s, w = .str s) := by
    intro t cur v w hc h
    unfold tokenDec at h
    split at h
    · rename_i ht
      cases v with
      | num q =>
        dsimp only at h
        split at h
        · rename_i hq
          cases h
          refine .inl ⟨ht, q.num, ?_, ?_⟩
          · congr 1
            exact (Rat.den_eq_one_iff q).mp hq.1 |>.symm
          · have := hq.2
            unfold wrap64 at this
            omega
        · cases h
      | null => simp only [Option.some.injEq] at h; exact hc w h
      | _ => cases h
    · rename_i ht
      unfold decString at h
      cases v with
      | str s => cases h; exact .inr ⟨ht, s, rfl⟩
      | null => simp only [Option.some.injEq] at h; exact hc w h
      | _ => cases h
  unfold readTokenResponse at h
  cases hb : body.bind bodyMembers with
  | none => rw [hb] at h; cases h
  | some l =>
    rw [hb] at h
    dsimp only at h
    cases hu : unmarshalObj errorTags errorDec l with
    | none => rw [hu] at h; cases h
    | some o =>
      rw [hu] at h
      dsimp only at h
      split at h
      · cases h
      · cases hu2 : unmarshalObj tokenTags tokenDec l with
        | none => rw [hu2] at h; cases h
        | some t' =>
          rw [hu2] at h
          cases h
          exact decode_types hdec (by intro t x hx; cases hx) (unmarshal_some hu2).1 k v hv

theorem decodeKnown_total {tags : List String} {dec : FieldDec} : ∀ {l : JObj} {f : String → Option JV},
    (∀ kv ∈ l, ∀ t, fieldFor tags kv.1 = some t → ∀ cur, ∃ w, dec t cur kv.2 = some w) → ∃ g, decodeKnown tags dec l f = some g := by
  intro l
  induction l with
  | nil => intro f _; exact ⟨f, rfl⟩
  | cons a l ih =>
    obtain ⟨k, v⟩ := a
    intro f h
    simp only [decodeKnown]
    cases hf : fieldFor tags k with
    | none => exact ih (fun kv hkv => h kv (List.mem_cons_of_mem _ hkv))
    | some t =>
      obtain ⟨w, hw⟩ := h (k, v) (List.mem_cons_self ..) t hf (f t)
      simp only [hw]
      exact ih (fun kv hkv => h kv (List.mem_cons_of_mem _ hkv))

/-- C73: an answer without an `error` whose members fit the fields is returned as a token response. -/
theorem C73_token_returned (l : JObj) (herr : ∀ kv ∈ l, Apart kv.1 "error" ∧ Apart kv.1 "error_description")
    (hfit : ∀ kv ∈ l, ∀ k ∈ tokenFields, ¬ Apart kv.1 k → FitsToken k kv.2) : ∃ t, readTokenResponse (some (.obj l)) = some (.token t) := by
  obtain ⟨g, hg⟩ := decodeKnown_total (tags := errorTags) (dec := errorDec) (l := l) (f := fun _ => none) (by
    intro kv hkv t ht
    obtain ⟨h1, h2⟩ := fieldFor_some ht
    have : t = "error" ∨ t = "error_description" := by simpa [errorTags] using h1
    rcases this with rfl | rfl
    · exact absurd h2.symm (herr kv hkv).1
    · exact absurd h2.symm (herr kv hkv).2)
  obtain ⟨g', hg'⟩ := decodeKnown_total (tags := tokenTags) (dec := tokenDec) (l := l) (f := fun _ => none) (by
    intro kv hkv t ht cur
    obtain ⟨h1, h2⟩ := fieldFor_some ht
    rcases hfit kv hkv t h1 (fun ha => ha h2.symm) with h | h
    · rw [h]; unfold tokenDec decString; split <;> exact ⟨_, rfl⟩
    · unfold tokenDec
      split at h
      · rename_i e
        obtain ⟨i, hi, hb1, hb2⟩ := h
        rw [if_pos e, hi]
        have : wrap64 i = i := wrap64_id (by omega) (by omega)
        refine ⟨some (.num i), ?_⟩
        simp [this]
      · rename_i e
        obtain ⟨s, hs⟩ := h
        rw [if_neg e, hs]
        exact ⟨_, rfl⟩)
  have h1 : unmarshalObj errorTags errorDec l = some ⟨g, (objMap l).filter (fun kv => !(errorTags.contains kv.1))⟩ := by
    unfold unmarshalObj; rw [hg]
  have h2 : unmarshalObj tokenTags tokenDec l = some ⟨g', (objMap l).filter (fun kv => !(tokenTags.contains kv.1))⟩ := by
    unfold unmarshalObj; rw [hg']
  have hn := decode_other (t := "error") hg (fun kv hkv hf => (herr kv hkv).1 (fieldFor_some hf).2.symm)
  exact ⟨⟨g', (objMap l).filter (fun kv => !(tokenTags.contains kv.1))⟩, by simp [readTokenResponse, bodyMembers, h1, h2, hn, strOf]⟩

namespace Ex
def tokenAnswer : JObj := [("access_token", .str "at"), ("expires_in", .num 3600), ("token_type", .str "Bearer"), ("x", .bool true)]
end Ex

example : ∃ t, readTokenResponse (some (.obj Ex.tokenAnswer)) = some (.token t) ∧ t.known "expires_in" = some (.num 3600) ∧
    t.extra.get "x" = some (.bool true) := ⟨_, rfl, rfl, rfl⟩

example : (∀ kv ∈ Ex.tokenAnswer, Apart kv.1 "error" ∧ Apart kv.1 "error_description") ∧
    ∀ kv ∈ Ex.tokenAnswer, ∀ k ∈ tokenFields, ¬ Apart kv.1 k → FitsToken k kv.2 := by
  constructor
  · intro kv hkv
    simp only [Ex.tokenAnswer, List.mem_cons, List.not_mem_nil, or_false] at hkv
    rcases hkv with rfl | rfl | rfl | rfl <;> exact ⟨by unfold Apart; decide, by unfold Apart; decide⟩
  · intro kv hkv k hk ha
    simp only [Ex.tokenAnswer, List.mem_cons, List.not_mem_nil, or_false] at hkv
    simp only [tokenFields, List.mem_cons, List.not_mem_nil, or_false] at hk
    right
    rcases hkv with rfl | rfl | rfl | rfl <;> rcases hk with rfl | rfl | rfl | rfl | rfl | rfl <;>
      first | exact absurd (by unfold Apart; decide) ha | exact ⟨_, rfl⟩ | exact ⟨3600, rfl, by decide, by decide⟩

example : readTokenResponse (some (.obj [("access_token", .str "at"), ("error", .str "invalid_grant")])) = some (.oidcError "invalid_grant") := by rfl

/-- C74 is false: an answer without any token, for example the empty object (with any HTTP status), is returned as a token response without
error. -/
theorem C74_access_token_refuted : ¬ ∀ (body : Option JV) (t : JStruct), readTokenResponse body = some (.token t) → strOf (t.known "access_token") ≠ "" := by
  intro h
  exact h (some (.obj [])) _ rfl rfl

/-- C74: an answer that is not a JSON object (or null) is reported as an error. Missing: objects without access token. -/
theorem C74_not_json_partial (body : Option JV) (h : ∀ l, body ≠ some (.obj l)) (hn : body ≠ some .null) : readTokenResponse body = none := by
  cases body with
  | none => rfl
  | some b =>
    cases b with
    | obj l => exact absurd rfl (h l)
    | null => exact absurd rfl hn
    | _ => rfl

end Oidfed
