import Verif.Spec.Operated
import Verif.Props.Publish
/-!
# Federations whose entities publish with this library: C112
-/

namespace Oidfed
open Spec

/-- What the reader of a published statement sees. -/
structure Seen (N : Numbering) (raw : Nat) (p : ESPayload) (s : Stmt) : Prop where
  iss : s.iss = p.iss
  sub : s.sub = p.sub
  hints : s.hints = p.hints.getD []
  constraints : s.constraints = p.asWritten.constraints
  types : s.entityTypes = declared p
  keys : ∀ ks, p.jwks = some ks → ks ≠ [] → s.jwks = some (ks.map N.key)
  fetch : ∀ ep, HasFetch p ep → s.fetchEndpoint = ep
  window : ∀ t, SafelyWithin p t → InWindow t s
  raw : s.raw = some raw
  hasMeta : s.metadata.isSome = p.metadata.isSome

theorem known_isSome {a b : JMetadata} (h : SameMetadata a b) (t : EType) : (b.known t).isSome = (a.known t).isSome := by
  have := h.known t
  cases ha : a.known t <;> cases hb : b.known t <;> rw [ha, hb] at this <;> first | rfl | cases this

theorem seen_of_same {N : Numbering} {raw : Nat} {opq : Opaque} {p q : ESPayload} (hp : PayloadOk opq p) (h : SameClaims p.asWritten q) :
    Seen N raw p (q.toStmt N (some raw)) where
  iss := h.iss
  sub := h.sub
  hints := h.hints
  constraints := h.constraints
  types := by
    have hm : Option.Rel SameMetadata p.metadata q.metadata := h.metadata
    unfold Stmt.entityTypes declared
    show (match q.metadata.map (JMetadata.toMetadata N) with
      | none => []
      | some m => m.entityTypes) = _
    cases ha : p.metadata <;> cases hb : q.metadata <;> rw [ha, hb] at hm <;> try cases hm
    · rfl
    · rename_i a b hab
      simp only [Option.map_some, Metadata.entityTypes]
      congr 2
      funext t
      rw [← known_isSome hab t]
      show ((b.known t).map _).isSome = _
      rw [Option.isSome_map]
  keys := by
    intro ks hk hne
    have : SameElems q.jwks p.jwks := h.keys
    unfold SameElems at this
    rw [hk] at this
    show q.jwks.map _ = _
    cases hq : q.jwks with
    | none => rw [hq] at this; exact absurd this.symm hne
    | some l =>
      rw [hq] at this
      have e : l = ks := this
      rw [e]; rfl
  fetch := by
    rintro ep ⟨hne, m, f, h1, h2, h3⟩
    have hm : Option.Rel SameMetadata p.metadata q.metadata := h.metadata
    rw [h1] at hm
    cases hb : q.metadata with
    | none => rw [hb] at hm; cases hm
    | some b =>
      rw [hb] at hm
      cases hm
      rename_i hab
      have hk := hab.known .fed
      rw [h2] at hk
      cases hf : b.known .fed with
      | none => rw [hf] at hk; cases hk
      | some g =>
        rw [hf] at hk
        cases hk
        rename_i hs
        have hv : g.val "FederationFetchEndpoint" = some (.str ep) := by
          rcases hs.fields ⟨"FederationFetchEndpoint", "federation_fetch_endpoint", .str, true⟩ (by simp [metaFields, fedFields]) with e | ⟨_, e⟩
          · rw [e]; exact h3
          · rw [h3] at e
            rcases e with e | e | e <;> cases e
        unfold Stmt.fetchEndpoint
        show (match q.metadata.map (JMetadata.toMetadata N) with
          | none => ""
          | some m => match m.known .fed with
            | none => ""
            | some f => f.str "federation_fetch_endpoint") = ep
        rw [hb]
        show (match (b.known .fed).map (MStruct.toMeta N (metaFields .fed)) with
            | none => ""
            | some f => f.str "federation_fetch_endpoint") = ep
        rw [hf]
        show EntityMeta.str (g.toMeta N (metaFields .fed)) "federation_fetch_endpoint" = ep
        have : (g.toMeta N (metaFields .fed)).fields.find? (fun f => f.tag == "federation_fetch_endpoint") =
            some ⟨"FederationFetchEndpoint", "federation_fetch_endpoint", .str, MKind.goVal N.obj .str (g.val "FederationFetchEndpoint")⟩ := rfl
        unfold EntityMeta.str
        rw [this, hv]
        rfl
  window := by
    intro t ht
    have h1 := abs_lt.mp h.iat
    have h2 := abs_lt.mp h.exp
    obtain ⟨h3, h4⟩ := ht
    have go : ∀ a b c d e : Int, (-2000 < b - a ∧ b - a < 2000) → (-2000 < d - c ∧ d - c < 2000) → a + 2000 ≤ e → e ≤ c - 2000 → b ≤ e ∧ e ≤ d := by
      intro a b c d e; omega
    obtain ⟨h5, h6⟩ := go _ _ _ _ _ h1 h2 h3 h4
    exact ⟨.inr h5, .inr h6⟩
  raw := rfl
  hasMeta := by
    have hm : Option.Rel SameMetadata p.metadata q.metadata := h.metadata
    show (q.metadata.map _).isSome = _
    rw [Option.isSome_map]
    cases ha : p.metadata <;> cases hb : q.metadata <;> rw [ha, hb] at hm <;> first | rfl | cases hm

theorem published_seen {C : Crypto} {X : Reader} {keyOf : Nat → JKey} {msgOf : Nat → Jws} {ks : List JKey} {js : List Jws}
    (hX : Faithful X keyOf msgOf ks js) {signer : ID → JSigner} {P : String → Option Jws} {ser : Jws → String} (hP : ∀ j, P (ser j) = some j) {p : ESPayload}
    {j : Jws} (h : Published C X signer p j) :
    ∃ s, parseStmt P X.decode (ser j) = some s ∧ Seen X.N (X.num j) p s := by
  obtain ⟨q, h1, h2⟩ := C110_as_written_partial X.K hX.keys X.opq hX.maps p h.ok
  obtain ⟨h3, h4⟩ := signStatement_jws h.signed
  refine ⟨q.toStmt X.N (some (X.num j)), ?_, seen_of_same h.ok h2⟩
  unfold parseStmt
  rw [hP]
  simp only [h4, if_true]
  unfold Reader.decode decodeStmt
  rw [h3, h1]
  rfl

theorem naming_strip {host : ID → Option String} {c : Constraints} {id : ID} (h : NamingOk host c id) : NamingOk host c.strip id := by
  intro n hn
  obtain ⟨n0, hn0, rfl⟩ := Option.map_eq_some_iff.mp (show c.naming.map Naming.strip = some n from hn)
  obtain ⟨h1, h2⟩ := h n0 hn0
  refine ⟨h1, ?_⟩
  intro ps hps
  have hps' : noEmpty n0.permitted = some ps := hps
  unfold noEmpty at hps'
  split at hps'
  · cases hps'
  · exact h2 ps hps'

theorem type_strip {c : Constraints} {ty : String} (h : TypeOk c ty) : TypeOk c.strip ty := by
  intro ts hts
  have hts' : noEmpty c.allowedTypes = some ts := hts
  unfold noEmpty at hts'
  split at hts'
  · cases hts'
  · exact h ts hts'

theorem restrict_types (types : List String) (s : Stmt) (p : ESPayload) (h : s.entityTypes = declared p) :
    (restrictTypes types s).entityTypes = typesAsked types p := by
  unfold restrictTypes typesAsked
  by_cases hn : types = []
  · subst hn
    simpa using h
  · rw [if_neg (by simpa using hn), if_neg hn, ← h]
    unfold Stmt.entityTypes
    cases hm : s.metadata with
    | none => rfl
    | some m =>
      simp only [Option.map_some, Metadata.entityTypes, Metadata.restrict]
      rw [List.filter_map]
      congr 1
      rw [List.filter_filter]
      congr 1
      funext t
      by_cases ht : t.tag ∈ types
      · simp [List.contains_eq_mem, ht]
      · simp [List.contains_eq_mem, ht]

/-- The step of a path that an authority makes. -/
noncomputable def stepOf (read : Jws → Option Stmt) (s0 : Stmt) (a : Authority) : Step := ⟨a.hint, (read a.configJwt).getD s0, (read a.aboutJwt).getD s0⟩

/-- **C112** (part): if everybody from the leaf to a configured anchor publishes with the library, names the superiors as authority hints, publishes the keys of the
signer of the entity below, and constraints hold, then the leaf resolves: the chain of the JWTs they serve is returned. The assumptions about payloads are those of
C110; times keep two microseconds from issuing and expiry. -/
theorem C112_operated_resolves_partial (C : Crypto) (hC : Scheme C) (X : Reader) (keyOf : Nat → JKey) (msgOf : Nat → Jws) (P : String → Option Jws)
    (ser : Jws → String) (hP : ∀ j, P (ser j) = some j) (signer : ID → JSigner) (W : World) (hW : W.sig = jwsOracle C keyOf msgOf) (r : Resolver)
    (leaf : ESPayload) (leafJwt : Jws) (as : List Authority) (top : Authority)
    (hX : Faithful X keyOf msgOf (keysOf as) (jwtsOf leafJwt as))
    (ho : OperatedWith C X (fun j => parseStmt P X.decode (ser j)) keyOf signer W r.anchors r.types leaf leafJwt as top)
    (hst : r.start ≠ "") (hs : W.start r.start = parseStmt P X.decode (ser leafJwt))
    (fuel : Nat) (cs : List Chain) (h : r.chainsNoMeta W fuel = .ok (some cs)) :
    ∃ s0 rest, parseStmt P X.decode (ser leafJwt) = some s0 ∧
      rest.map some = (as.map Authority.aboutJwt ++ [top.configJwt]).map (fun j => parseStmt P X.decode (ser j)) ∧
      restrictTypes r.types s0 :: rest ∈ cs := by
  obtain ⟨s0, h0, seen0⟩ := published_seen hX hP ho.leaf_published
  let read : Jws → Option Stmt := fun j => parseStmt P X.decode (ser j)
  let st : Authority → Step := stepOf read s0
  have below : ∀ k a, as[k]? = some a → ∃ e, (configs leaf as)[k]? = some e ∧
      AuthorityOk C X read signer W r.anchors r.types leaf as k e a := by
    intro k a hk
    have hlt : k < (configs leaf as).length := by
      have := (List.getElem?_eq_some_iff.mp hk).1
      simp only [configs, List.length_cons, List.length_map]
      omega
    exact ⟨(configs leaf as)[k], List.getElem?_eq_getElem hlt, ho.authorities k _ a (List.getElem?_eq_getElem hlt) hk⟩
  have seen : ∀ a ∈ as, read a.configJwt = some (st a).ec ∧ Seen X.N (X.num a.configJwt) a.config (st a).ec ∧
      read a.aboutJwt = some (st a).sub ∧ Seen X.N (X.num a.aboutJwt) a.about (st a).sub := by
    intro a ha
    obtain ⟨k, hk⟩ := List.mem_iff_getElem?.mp ha
    obtain ⟨e, _, ok⟩ := below k a hk
    obtain ⟨s1, h1, h2⟩ := published_seen hX hP ok.config
    obtain ⟨s2, h3, h4⟩ := published_seen hX hP ok.about
    have e1 : (st a).ec = s1 := by show (read a.configJwt).getD s0 = s1; rw [show read a.configJwt = some s1 from h1]; rfl
    have e2 : (st a).sub = s2 := by show (read a.aboutJwt).getD s0 = s2; rw [show read a.aboutJwt = some s2 from h3]; rfl
    rw [e1, e2]
    exact ⟨h1, h2, h3, h4⟩
  have hleaf : ∀ p : Stmt → Prop, p s0 → (∀ m, p { s0 with metadata := m }) → p (restrictTypes r.types s0) := by
    intro p h1 h2
    unfold restrictTypes
    split
    · exact h1
    · exact h2 _
  have l1 : (restrictTypes r.types s0).iss = leaf.iss := hleaf (fun s => s.iss = leaf.iss) seen0.iss (fun _ => seen0.iss)
  have l2 : (restrictTypes r.types s0).sub = leaf.sub := hleaf (fun s => s.sub = leaf.sub) seen0.sub (fun _ => seen0.sub)
  have l3 : (restrictTypes r.types s0).hints = leaf.hints.getD [] := hleaf (fun s => s.hints = leaf.hints.getD []) seen0.hints (fun _ => seen0.hints)
  have l4 : (restrictTypes r.types s0).raw = some (X.num leafJwt) := hleaf (fun s => s.raw = some (X.num leafJwt)) seen0.raw (fun _ => seen0.raw)
  have hids : ∀ k, (as.map st |>.take k).map (fun s => s.ec.iss) = (as.take k).map (fun b => b.config.iss) := by
    intro k
    rw [← List.map_take, List.map_map]
    exact List.map_congr_left (fun a ha => (seen a (List.mem_of_mem_take ha)).2.1.iss)
  have htys : ∀ k, (as.map st |>.take k).map (fun s => s.ec.entityTypes) = (as.take k).map (fun b => declared b.config) := by
    intro k
    rw [← List.map_take, List.map_map]
    exact List.map_congr_left (fun a ha => (seen a (List.mem_of_mem_take ha)).2.1.types)
  have hpos : ∀ k, posAt (as.map st) k = wayTo as k := by
    intro k
    unfold posAt wayTo
    rw [← List.map_take, List.map_map]
    rfl
  have hnums : ∀ ks : List JKey, (∀ k ∈ ks, k ∈ keysOf as) → (ks.map X.N.key).map keyOf = ks := by
    intro ks hks
    rw [List.map_map]
    conv => rhs; rw [← List.map_id ks]
    exact List.map_congr_left (fun k hk => hX.keyNumbers k (hks k hk))
  have hmsg : ∀ j ∈ jwtsOf leafJwt as, msgOf (X.num j) = j := hX.messages
  have hj1 : ∀ a ∈ as, a.configJwt ∈ jwtsOf leafJwt as := fun a ha =>
    List.mem_cons_of_mem _ (List.mem_flatMap.mpr ⟨a, ha, by simp⟩)
  have hj2 : ∀ a ∈ as, a.aboutJwt ∈ jwtsOf leafJwt as := fun a ha =>
    List.mem_cons_of_mem _ (List.mem_flatMap.mpr ⟨a, ha, by simp⟩)
  have hpath : OperatedPath C keyOf msgOf signer W r.anchors (restrictTypes r.types s0) (as.map st) := by
    refine ⟨?_, ?_, ?_, ?_, ?_⟩
    · intro k e s he hk
      rw [List.getElem?_map] at hk
      obtain ⟨a, ha, rfl⟩ := Option.map_eq_some_iff.mp hk
      obtain ⟨p, hp, ok⟩ := below k a ha
      have hmem := List.mem_of_getElem? ha
      obtain ⟨r1, c1, r2, c2⟩ := seen a hmem
      have hep : e.iss = p.iss ∧ e.hints = p.hints.getD [] := by
        cases k with
        | zero =>
          simp only [entities, configs, List.getElem?_cons_zero, Option.some.injEq] at he hp
          subst he; subst hp
          exact ⟨l1, l3⟩
        | succ n =>
          simp only [entities, configs, List.getElem?_cons_succ, List.getElem?_map, Option.map_map] at he hp
          obtain ⟨b, hb, rfl⟩ := Option.map_eq_some_iff.mp he
          rw [hb] at hp
          cases hp
          have := (seen b (List.mem_of_getElem? hb)).2.1
          exact ⟨this.iss, this.hints⟩
      obtain ⟨ep, hf, hsv⟩ := ok.serves_about
      refine { below_not_anchor := ?_, hinted := ?_, not_visited := ?_, served := ?_, self_issued := ?_, ec_time := ?_, has_fetch := ?_, fetched := ?_, sub_iss := ?_,
               sub_sub := ?_, sub_time := ?_, constraints := ?_ }
      · rw [hep.1]; exact ok.below_not_anchor
      · rw [hep.2, c1.iss]; exact ok.hinted
      · rw [c1.iss]
        unfold idsBelow
        rw [l2, hids]
        exact ok.new
      · rw [c1.iss, hpos, ok.serves_config]; exact r1
      · rw [c1.iss, c1.sub]; exact ok.own
      · rw [hpos]; exact c1.window _ ok.config_time
      · rw [c1.fetch ep hf]; exact hf.1
      · rw [c1.fetch ep hf, c1.iss, hep.1, hpos, hsv]; exact r2
      · rw [c2.iss, c1.iss]; exact ok.about_iss
      · rw [c2.sub, hep.1]; exact ok.about_sub
      · rw [hpos]; exact c2.window _ ok.about_time
      · intro c hc
        rw [c2.constraints] at hc
        unfold idsBelow typesBelow
        rw [l2, hids, htys, restrict_types r.types s0 leaf seen0.types]
        obtain ⟨c0, hc0, rfl⟩ := Option.map_eq_some_iff.mp (show a.about.constraints.map Constraints.strip = some c from hc)
        obtain ⟨k1, k2, k3⟩ := ok.constraints c0 hc0
        exact ⟨k1, fun id hid => naming_strip (k2 id hid), fun ty hty => type_strip (k3 ty hty)⟩
    · refine ⟨X.num leafJwt, some (leaf.write X.K), l4, ?_⟩
      rw [l1, hmsg leafJwt (List.mem_cons_self ..)]
      exact ho.leaf_published.signed
    · intro s hs
      obtain ⟨a, ha, rfl⟩ := List.mem_map.mp hs
      obtain ⟨k, hk⟩ := List.mem_iff_getElem?.mp ha
      obtain ⟨e, _, ok⟩ := below k a hk
      obtain ⟨_, c1, _, c2⟩ := seen a ha
      refine ⟨⟨_, some (a.config.write X.K), c1.raw, ?_⟩, ⟨_, some (a.about.write X.K), c2.raw, ?_⟩⟩
      · rw [c1.iss, hmsg _ (hj1 a ha)]; exact ok.config.signed
      · rw [c2.iss, hmsg _ (hj2 a ha)]; exact ok.about.signed
    · intro s hs
      obtain ⟨a, ha, rfl⟩ := List.mem_map.mp hs
      obtain ⟨k, hk⟩ := List.mem_iff_getElem?.mp ha
      obtain ⟨e, _, ok⟩ := below k a hk
      obtain ⟨_, _, _, c2⟩ := seen a ha
      obtain ⟨ks, hks, hsg⟩ := ok.keys
      refine ⟨ks.map X.N.key, c2.keys ks hks (keyToJWKS_ne hsg), ?_⟩
      rw [c2.sub, ok.about_sub, hsg, hnums]
      intro k hk
      exact List.mem_flatMap.mpr ⟨a, ha, by rw [hks]; simp [hk]⟩
    · obtain ⟨ta, hta, hkeys⟩ := ho.anchor
      have hmem := List.mem_of_getLast? ho.last
      obtain ⟨_, c1, _, _⟩ := seen top hmem
      rcases hkeys with ⟨ks, h1, h2⟩ | ⟨h1, ks, h2, h3⟩
      · refine ⟨st top, ta, some ks, ?_, ?_, .inl ⟨ks, h1, rfl⟩, ⟨ks, rfl, h2⟩⟩
        · rw [List.getLast?_map, ho.last]; rfl
        · rw [c1.iss]; exact hta
      · refine ⟨st top, ta, (st top).ec.jwks, ?_, ?_, .inr ⟨h1, rfl⟩, ⟨ks.map X.N.key, c1.keys ks h2 (keyToJWKS_ne h3), ?_⟩⟩
        · rw [List.getLast?_map, ho.last]; rfl
        · rw [c1.iss]; exact hta
        · rw [h3, hnums]
          intro k hk
          exact List.mem_flatMap.mpr ⟨top, hmem, by rw [h2]; simp [hk]⟩
  refine ⟨s0, (as.map st).map Step.sub ++ [(st top).ec], h0, ?_, ?_⟩
  · rw [List.map_append, List.map_append, List.map_map, List.map_map, List.map_map]
    congr 1
    · exact List.map_congr_left (fun a ha => (seen a ha).2.2.1.symm)
    · show [some (st top).ec] = [read top.configJwt]
      rw [(seen top (List.mem_of_getLast? ho.last)).1]
  · refine C103_operated_resolves C hC keyOf msgOf signer W hW r fuel cs h hst s0 (hs.trans h0) (as.map st) hpath _ ⟨st top, ?_, rfl⟩
    rw [List.getLast?_map, ho.last]; rfl

/-! ## A federation that meets the hypotheses -/

namespace ExO
open ExS

/-- The private key of each entity. -/
def keyNo (e : ID) : Nat := if e = "l" then 1 else if e = "i" then 2 else 3

def signer (e : ID) : JSigner := ⟨some (keyNo e), "ES512"⟩

/-- The published key. -/
def pub (n : Nat) : JKey := ⟨some (exCrypto.thumb n), some "sig", some "ES512", n⟩

/-- A statement with the claims of `ExS.payload` besides these, with the policies or without. -/
def mk (q : Bool) (iss sub : ID) (hints : List ID) (m : Option JMetadata) (c : Constraints) : ESPayload :=
  { payload c with iss := iss, sub := sub, jwks := some [pub (keyNo sub)], hints := some hints, metadata := m
                   policy := if q then (payload c).policy else none }

/-- Metadata with a fetch endpoint. -/
def md (ep : String) : JMetadata := ⟨fun t => match t with | .fed => some (fed ep) | _ => none, [("wallet", .obj [("a", .str "b")])]⟩

theorem mk_ok (q : Bool) (iss sub : ID) (hints : List ID) (m : Option JMetadata) (c : Constraints) (hm : m = none ∨ ∃ ep, m = some (md ep))
    (hc : c.maxPath = some 1 ∨ c.maxPath = none) : PayloadOk opq (mk q iss sub hints m c) :=
  { payload_ok c hc with
    policy := by
      intro x hx
      cases q
      · cases hx
      · exact (payload_ok c hc).policy x hx
    metadata := by
      intro x hx
      have hx' : m = some x := hx
      rcases hm with rfl | ⟨ep, rfl⟩
      · cases hx'
      · cases hx'
        refine ⟨⟨by simp [AMap.WF, AMap.keys, md], show ∀ k ∈ ["wallet"], ∀ t ∈ EType.all.map EType.tag, foldName t ≠ foldName k by decide⟩, ?_⟩
        intro t s hs
        cases t <;> first | (cases hs; exact fed_ok _) | cases hs }

def leaf (q : Bool) : ESPayload := mk q "l" "l" ["x", "i"] (some (md "")) ⟨none, none, none⟩
def iCfg (q : Bool) : ESPayload := mk q "i" "i" ["t"] (some (md "i/fetch")) ⟨none, none, none⟩
def il (q : Bool) : ESPayload := mk q "i" "l" [] none ⟨none, some ⟨some ["l"], ["bad"]⟩, some ["openid_provider"]⟩
def tCfg (q : Bool) : ESPayload := mk q "t" "t" [] (some (md "t/fetch")) ⟨none, none, none⟩
def ti (q : Bool) : ESPayload := mk q "t" "i" [] none ⟨some 1, none, none⟩

/-- The JWT of a payload. -/
def jwt (p : ESPayload) : Jws := ⟨p.write codec, [⟨some "entity-statement+jwt", some (exCrypto.thumb (keyNo p.iss)), some "ES512", keyNo p.iss⟩]⟩

/-- Two numbers for each signer: statements with and without metadata. -/
def num (j : Jws) : Nat :=
  match j.sigs with
  | [s] => 2 * s.sig + if j.payload.any (fun kv => kv.1 == "metadata") then 1 else 0
  | _ => 0

def X : Reader := ⟨codec, opq, ⟨JKey.key, fun _ => 0⟩, num⟩

def msgOf (q : Bool) : Nat → Jws
  | 3 => jwt (leaf q)
  | 5 => jwt (iCfg q)
  | 4 => jwt (il q)
  | 7 => jwt (tCfg q)
  | _ => jwt (ti q)

def ai (q : Bool) : Authority := ⟨1, iCfg q, jwt (iCfg q), il q, jwt (il q)⟩
def at' (q : Bool) : Authority := ⟨0, tCfg q, jwt (tCfg q), ti q, jwt (ti q)⟩

/-- Everybody serves what they published. -/
def W (q : Bool) (read : Jws → Option Stmt) : World where
  start := fun id => if id = "l" then read (jwt (leaf q)) else none
  ec := fun _ id => if id = "i" then read (jwt (iCfg q)) else if id = "t" then read (jwt (tCfg q)) else none
  fetch := fun _ ep sub iss =>
    if ep = "i/fetch" ∧ sub = "l" ∧ iss = "i" then read (jwt (il q)) else if ep = "t/fetch" ∧ sub = "i" ∧ iss = "t" then read (jwt (ti q)) else none
  nowEC := fun _ => 1700000000123999999
  nowSub := fun _ => 1700000000123999999
  host := fun id => some id
  sig := jwsOracle exCrypto pub (msgOf q)

theorem jwt_signed (p : ESPayload) : signStatement exCrypto X.K (signer p.iss) p = .ok (jwt p) := rfl

theorem published (q : Bool) (iss sub : ID) (hints : List ID) (m : Option JMetadata) (c : Constraints) (hm : m = none ∨ ∃ ep, m = some (md ep))
    (hc : c.maxPath = some 1 ∨ c.maxPath = none) : Published exCrypto X signer (mk q iss sub hints m c) (jwt (mk q iss sub hints m c)) where
  ok := mk_ok q iss sub hints m c hm hc
  signed := jwt_signed _

theorem p_leaf (q : Bool) : Published exCrypto X signer (leaf q) (jwt (leaf q)) := published q _ _ _ _ _ (.inr ⟨_, rfl⟩) (.inr rfl)
theorem p_iCfg (q : Bool) : Published exCrypto X signer (iCfg q) (jwt (iCfg q)) := published q _ _ _ _ _ (.inr ⟨_, rfl⟩) (.inr rfl)
theorem p_tCfg (q : Bool) : Published exCrypto X signer (tCfg q) (jwt (tCfg q)) := published q _ _ _ _ _ (.inr ⟨_, rfl⟩) (.inr rfl)
theorem p_il (q : Bool) : Published exCrypto X signer (il q) (jwt (il q)) := published q _ _ _ _ _ (.inl rfl) (.inr rfl)
theorem p_ti (q : Bool) : Published exCrypto X signer (ti q) (jwt (ti q)) := published q _ _ _ _ _ (.inl rfl) (.inl rfl)

theorem num_eq (q : Bool) (iss sub : ID) (hints : List ID) (m : Option JMetadata) (c : Constraints) :
    num (jwt (mk q iss sub hints m c)) = 2 * keyNo iss + if (members entityStatementTags ((mk q iss sub hints m c).struct codec)).any (fun kv => kv.1 == "metadata") then 1 else 0 := by
  show 2 * keyNo iss + (if (sortMembers _).any (fun kv => kv.1 == "metadata") then 1 else 0) = _
  rw [(sortMembers_perm _).any_eq]

theorem faithful (q : Bool) : Faithful X pub (msgOf q) (keysOf [ai q, at' q]) (jwtsOf (jwt (leaf q)) [ai q, at' q]) where
  keys := codec_ok
  maps := opq_map
  keyNumbers := by
    have h : keysOf [ai q, at' q] = [pub 2, pub 1, pub 3, pub 2] := rfl
    rw [h]
    intro k hk
    simp only [List.mem_cons, List.not_mem_nil, or_false] at hk
    rcases hk with rfl | rfl | rfl | rfl <;> rfl
  messages := by
    have e1 : num (jwt (leaf q)) = 3 := by cases q <;> exact num_eq ..
    have e2 : num (jwt (iCfg q)) = 5 := by cases q <;> exact num_eq ..
    have e3 : num (jwt (il q)) = 4 := by cases q <;> exact num_eq ..
    have e4 : num (jwt (tCfg q)) = 7 := by cases q <;> exact num_eq ..
    have e5 : num (jwt (ti q)) = 6 := by cases q <;> exact num_eq ..
    have h : jwtsOf (jwt (leaf q)) [ai q, at' q] = [jwt (leaf q), jwt (iCfg q), jwt (il q), jwt (tCfg q), jwt (ti q)] := rfl
    rw [h]
    intro j hj
    show msgOf q (num j) = j
    simp only [List.mem_cons, List.not_mem_nil, or_false] at hj
    rcases hj with rfl | rfl | rfl | rfl | rfl
    · rw [e1]; rfl
    · rw [e2]; rfl
    · rw [e3]; rfl
    · rw [e4]; rfl
    · rw [e5]; rfl

/-- The resolver knows the anchor by its key. -/
def R : Resolver := ⟨[⟨"t", some [3]⟩], "l", []⟩

theorem in_time (p : ESPayload) (h1 : p.iat = 1700000000123456789) (h2 : p.exp = 1700086400123456789) : SafelyWithin p 1700000000123999999 := by
  refine ⟨?_, ?_⟩
  · rw [h1]; show (1700000000123456789 : Int) + 2000 ≤ 1700000000123999999; decide
  · rw [h2]; show (1700000000123999999 : Int) ≤ 1700086400123456789 - 2000; decide

theorem only_fed (q : Bool) (ep : String) (iss sub : ID) (hints : List ID) (c : Constraints) : declared (mk q iss sub hints (some (md ep)) c) = ["federation_entity"] := rfl

theorem operated (q : Bool) (read : Jws → Option Stmt) : OperatedWith exCrypto X read pub signer (W q read) R.anchors R.types (leaf q) (jwt (leaf q)) [ai q, at' q] (at' q) where
  leaf_published := p_leaf q
  last := rfl
  anchor := ⟨⟨"t", some [3]⟩, ⟨[], [], rfl, rfl, by simp⟩, .inl ⟨[3], rfl, rfl⟩⟩
  authorities := by
    intro k e a he ha
    match k with
    | 0 =>
      cases he; cases ha
      exact {
        config := p_iCfg q, about := p_il q, below_not_anchor := by revert q; decide, hinted := rfl, new := by revert q; decide, own := rfl, about_iss := rfl, about_sub := rfl
        keys := ⟨_, rfl, rfl⟩, serves_config := rfl
        serves_about := ⟨"i/fetch", ⟨by decide, _, _, rfl, rfl, rfl⟩, rfl⟩
        config_time := in_time _ rfl rfl, about_time := in_time _ rfl rfl
        constraints := by
          intro c hc
          cases hc
          refine ⟨(by intro n hn; cases hn), ?_, ?_⟩
          · intro id hid n hn
            cases hn
            have : id = "l" := List.mem_singleton.mp hid
            subst this
            refine ⟨?_, ?_⟩
            · intro x hx
              have : x = "bad" := List.mem_singleton.mp hx
              subst this
              rintro ⟨h, h1, h2⟩
              cases h1
              rcases h2 with ⟨⟨rest, h3⟩, _⟩ | ⟨_, h3⟩
              · exact absurd (show "bad".toList.head? = some '.' by rw [h3]; rfl) (by decide)
              · exact absurd h3 (by decide)
            · intro ps hps
              cases hps
              refine ⟨"l", List.mem_singleton.mpr rfl, "l", rfl, .inr ⟨?_, rfl⟩⟩
              rintro ⟨rest, h⟩
              exact absurd (show "l".toList.head? = some '.' by rw [h]; rfl) (by decide)
          · intro ty hty ts _
            have : ty = "federation_entity" := by
              have h : typesAsked R.types (leaf q) ++ (([ai q, at' q].take 0).map (fun b => declared b.config)).flatten = ["federation_entity"] := rfl
              rw [h] at hty
              exact List.mem_singleton.mp hty
            exact .inr this }
    | 1 =>
      cases he; cases ha
      exact {
        config := p_tCfg q, about := p_ti q, below_not_anchor := by revert q; decide, hinted := rfl, new := by revert q; decide, own := rfl, about_iss := rfl, about_sub := rfl
        keys := ⟨_, rfl, rfl⟩, serves_config := rfl
        serves_about := ⟨"t/fetch", ⟨by decide, _, _, rfl, rfl, rfl⟩, rfl⟩
        config_time := in_time _ rfl rfl, about_time := in_time _ rfl rfl
        constraints := by
          intro c hc
          cases hc
          refine ⟨by intro n hn; cases hn; decide, ?_, ?_⟩
          · intro id _ n hn; cases hn
          · intro ty _ ts hts; cases hts }
    | n+2 => cases ha

/-- The leaf resolves. -/
theorem resolves (q : Bool) (ser : Jws → String) (P : String → Option Jws) (hP : ∀ j, P (ser j) = some j) :
    let read := fun j => parseStmt P X.decode (ser j)
    ∃ cs s0 rest, R.chainsNoMeta (W q read) 4 = .ok (some cs) ∧ read (jwt (leaf q)) = some s0 ∧
      rest.map some = [read (jwt (il q)), read (jwt (ti q)), read (jwt (tCfg q))] ∧ s0 :: rest ∈ cs := by
  intro read
  obtain ⟨s0, h1, seen0⟩ := published_seen (faithful q) hP (p_leaf q)
  obtain ⟨s1, h2, seen1⟩ := published_seen (faithful q) hP (p_iCfg q)
  obtain ⟨s2, h3, seen2⟩ := published_seen (faithful q) hP (p_tCfg q)
  have hm : s0.metadata.isSome = true := seen0.hasMeta
  have hterm : R.chainsNoMeta (W q read) 4 ≠ .ok none := by
    refine C09_resolution_terminates (W q read) R ["x", "i", "t"] ?_ ?_ 4 (by decide)
    · intro p id s hs h hh
      have hs' : (if id = "i" then read (jwt (iCfg q)) else if id = "t" then read (jwt (tCfg q)) else none) = some s := hs
      split at hs'
      · have e : s1 = s := Option.some.inj (h2.symm.trans hs')
        rw [← e, seen1.hints] at hh
        have : h = "t" := List.mem_singleton.mp hh
        simp [this]
      · split at hs'
        · have e : s2 = s := Option.some.inj (h3.symm.trans hs')
          rw [← e, seen2.hints] at hh
          cases hh
        · cases hs'
    · intro id s hs h hh
      have hs' : (if id = "l" then read (jwt (leaf q)) else none) = some s := hs
      split at hs'
      case isFalse => cases hs'
      have e : s0 = s := Option.some.inj (h1.symm.trans hs')
      rw [← e, seen0.hints] at hh
      have hh' : h ∈ ["x", "i"] := hh
      simp only [List.mem_cons, List.not_mem_nil, or_false] at hh' ⊢
      rcases hh' with h | h <;> simp [h]
  cases hr : R.chainsNoMeta (W q read) 4 with
  | error e =>
    exfalso
    have hs : (W q read).start R.start = some s0 := h1
    unfold Resolver.chainsNoMeta Resolver.resolveTree at hr
    rw [hs] at hr
    cases hmm : s0.metadata with
    | none => rw [hmm] at hm; cases hm
    | some m =>
      simp only [hmm, Option.isNone_some, Bool.false_eq_true, if_false] at hr
      cases hr
  | ok o =>
    cases o with
    | none => exact absurd hr hterm
    | some cs =>
      obtain ⟨s, rest, g1, g2, g3⟩ := C112_operated_resolves_partial exCrypto exScheme X pub (msgOf q) P ser hP signer (W q read) rfl R (leaf q) (jwt (leaf q)) [ai q, at' q] (at' q)
        (faithful q) (operated q read) (by decide) rfl 4 cs hr
      exact ⟨cs, s, rest, rfl, g1, g2, g3⟩

end ExO

end Oidfed
