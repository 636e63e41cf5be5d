import Verif.Spec.EndToEnd
import Verif.Props.Fetch
import Verif.Props.JwsChain
/-!
# Whole trust chains, from the network to the caller: C101, C102, C103
-/

namespace Oidfed
open Spec

/-! ## C101 -/

theorem restrictTypes_frame (ts : List String) (s : Stmt) : restrictTypes ts s = { s with metadata := (restrictTypes ts s).metadata } := by
  unfold restrictTypes; split <;> rfl

/-- **C101**: whatever was looked up before by any number of goroutines and whatever is served, the first statement of a returned chain is what was served at the configuration URL of
the starting entity (restricted to the requested types), and every further statement comes from the entity that it names as its issuer. -/
theorem C101_chain_from_issuers (b : Backend) (H : Hashes) (P : String → Option Jws) (D : Jws → Option Stmt) (s : FState)
    (hs : FReach b H P D LibraryLookup s) (W : World) (hW : AnswersOf s W) (r : Resolver) (c : Chain) (h : Produces W r c) :
    (∃ s0 rest, c = restrictTypes r.types s0 :: rest ∧ FromIssuer s.served r.start r.start s0) ∧
    ∀ st ∈ c.tail, FromIssuer s.served st.sub st.iss st := by
  have hstart : ∀ s0, W.start r.start = some s0 → FromIssuer s.served r.start r.start s0 := fun s0 h0 =>
    C98_from_issuer_partial b H P D s hs (.config r.start) s0 (hW.start _ _ h0)
  rcases C02_every_chain_anchored_partial W r c h with ⟨hl, _⟩ | ⟨s0, h0, rfl, _⟩
  · obtain ⟨s0, steps, h0, hv, st, hlast, rfl⟩ := produces_path h hl
    refine ⟨⟨s0, _, rfl, hstart s0 h0⟩, ?_⟩
    intro x hx
    simp only [List.tail_cons, List.mem_append, List.mem_map, List.mem_singleton] at hx
    rcases hx with ⟨a, ha, rfl⟩ | rfl
    · obtain ⟨k, hk⟩ := List.mem_iff_getElem?.mp ha
      obtain ⟨e, ok, _⟩ := step_ok hv k a hk
      have := C98_from_issuer_partial b H P D s hs (.fetch a.ec.fetchEndpoint e.iss a.ec.iss) a.sub (hW.fetch _ _ _ _ _ ok.fetched)
      rw [ok.sub_sub, ok.sub_iss]
      exact this
    · obtain ⟨k, hk⟩ := List.mem_iff_getElem?.mp (List.mem_of_getLast? hlast)
      obtain ⟨e, ok, _⟩ := step_ok hv k st hk
      have := C98_from_issuer_partial b H P D s hs (.config st.ec.iss) st.ec (hW.ec _ _ _ ok.served)
      rw [ok.self_issued]
      exact this
  · exact ⟨⟨s0, [], rfl, hstart s0 h0⟩, by simp⟩

/-! ## C102 -/

/-- A key of a set that verified made the signature. -/
theorem madeBy_of_signedBy {C : Crypto} {ks : List JKey} {m : Jws} {sg : JSig} (h : SignedBy C ks m sg) : ∃ k ∈ ks, MadeBy C k m := by
  obtain ⟨h1, k, hk, h2⟩ := h
  exact ⟨k, hk, sg, h1, k, List.mem_singleton.mpr rfl, h2⟩

/-- If all keys of the set are held by `e`, what verifies with it was signed by `e`. -/
theorem signedByEntity_of {C : Crypto} {keyOf : Nat → JKey} {msgOf : Nat → Jws} {keys : Keys} {s : Stmt} {Holds : ID → JKey → Prop} {e : ID}
    (h : JwtSignedBy C keyOf msgOf keys s) (hh : ∀ ks, keys = some ks → ∀ n ∈ ks, Holds e (keyOf n)) : SignedByEntity C msgOf Holds s e := by
  obtain ⟨ks, r, sg, h1, h2, h3⟩ := h
  obtain ⟨k, hk, hm⟩ := madeBy_of_signedBy h3
  obtain ⟨n, hn, rfl⟩ := List.mem_map.mp hk
  exact ⟨keyOf n, r, hh ks h1 n hn, h2, hm⟩

/-- The link between neighbours below the top pair. -/
theorem linked_iss {A : List Anchor} {c : Chain} (h : Linked A c) (k : Nat) (s next : Stmt) (hk : k + 2 < c.length) (hs : c[k]? = some s)
    (hn : c[k+1]? = some next) : s.iss = next.sub := by
  obtain ⟨leaf, subs, top, rfl, ⟨s0, h1, h2⟩, h3, _⟩ := h
  simp only [List.length_cons, List.length_append, List.length_nil] at hk
  rw [List.getElem?_cons_succ, List.getElem?_append_left (by omega)] at hn
  cases k with
  | zero =>
    rw [h1] at hn
    simp only [List.getElem?_cons_zero] at hs
    cases hn; cases hs; exact h2.symm
  | succ k =>
    rw [List.getElem?_cons_succ, List.getElem?_append_left (by omega)] at hs
    exact h3 k s next hs hn

/-- The statement below the top is issued by the anchor. -/
theorem linked_top {A : List Anchor} {pre : Chain} {s top : Stmt} (h : Linked A (pre ++ [s, top])) : s.iss = top.iss := by
  obtain ⟨leaf, subs, top', h0, _, _, ⟨s', h4, h5⟩, _⟩ := h
  have hne : subs ≠ [] := by rintro rfl; cases h4
  have e : pre ++ [s, top] = (leaf :: subs) ++ [top'] := by rw [h0]; simp
  rw [show pre ++ [s, top] = (pre ++ [s]) ++ [top] by simp] at e
  obtain ⟨e1, e2⟩ := List.append_inj' e rfl
  cases e2
  have : (leaf :: subs).getLast? = some s := by rw [← e1]; simp
  rw [List.getLast?_cons, h4] at this
  cases this
  exact h5

/-- The step from the keys of the anchor downwards, for any way in which the anchor's authoritative keys are known to be its own. -/
theorem authentic_from_top (C : Crypto) (keyOf : Nat → JKey) (msgOf : Nat → Jws) (D : Jws → Option Stmt) (Holds : ID → JKey → Prop) (W : World)
    (hW : W.sig = jwsOracle C keyOf msgOf) (r : Resolver) (c : Chain) (h : Produces W r c) (hl : 2 ≤ c.length) (hread : ∀ s ∈ c, ReadFrom msgOf D s)
    (htop : ∀ pre s top ta keys, c = pre ++ [s, top] → FirstAnchor r.anchors top.iss ta → AnchorKeys ta top keys →
      ∀ ks, keys = some ks → ∀ n ∈ ks, Holds top.iss (keyOf n))
    (k : Nat) (s : Stmt) (hs : c[k]? = some s)
    (htrue : ∀ j x, k < j → c[j]? = some x → Truthful C keyOf D Holds x.iss) : SignedByEntity C msgOf Holds s s.iss := by
  obtain ⟨h1, pre, s1, top, ta, keys, rfl, h3, h4, h5, h6⟩ := C94_in_chains C keyOf msgOf W hW r c h hl
  have hlink := C01_chains_linked W r _ h hl
  have hkeys := htop pre s1 top ta keys rfl h3 h4
  have hlen : (pre ++ [s1, top]).length = pre.length + 2 := by simp
  -- from the top downwards
  have main : ∀ d j x, j + d = pre.length → k ≤ j → (pre ++ [s1, top])[j]? = some x → SignedByEntity C msgOf Holds x x.iss := by
    intro d
    induction d with
    | zero =>
      intro j x hj _ hx
      have : j = pre.length := by omega
      subst this
      simp only [List.getElem?_append_right (Nat.le_refl _), Nat.sub_self, List.getElem?_cons_zero, Option.some.injEq] at hx
      subst hx
      refine signedByEntity_of h5 ?_
      rw [linked_top hlink]
      exact hkeys
    | succ d ih =>
      intro j x hj hkj hx
      have hlt : j + 1 < (pre ++ [s1, top]).length := by omega
      obtain ⟨next, hn⟩ : ∃ next, (pre ++ [s1, top])[j+1]? = some next := ⟨_, List.getElem?_eq_getElem hlt⟩
      have hsig := h1 j x next (by omega) hx hn
      obtain ⟨key, raw, hk1, hk2, hk3⟩ := ih (j+1) next (by omega) (by omega) hn
      obtain ⟨s', hD, e1, e2, e3⟩ := hread next (List.mem_of_getElem? hn) raw hk2
      have ht := htrue (j+1) next (by omega) hn key (msgOf raw) s' hk1 hk3 hD
      refine signedByEntity_of hsig ?_
      intro ks hks n hn'
      rw [linked_iss hlink j x next (by omega) hx hn, e2]
      exact ht.2 ks (by rw [← e3]; exact hks) n hn'
  by_cases hk : k ≤ pre.length
  · exact main (pre.length - k) k s (by omega) (Nat.le_refl _) hs
  · have hlt := (List.getElem?_eq_some_iff.mp hs).1
    have : k = pre.length + 1 := by omega
    subst this
    simp only [List.getElem?_append_right (Nat.le_add_right _ 1), Nat.add_sub_cancel_left, List.getElem?_cons_succ, List.getElem?_cons_zero,
      Option.some.injEq] at hs
    subst hs
    exact signedByEntity_of h6 hkeys

/-- **C102**: take a chain of at least two statements to an anchor that is configured with keys the anchor holds. If the issuers of all statements above a statement
of the chain are truthful, that statement was signed by the entity that it names as its issuer. So an untruthful authority affects only what is below it. -/
theorem C102_authentic (C : Crypto) (keyOf : Nat → JKey) (msgOf : Nat → Jws) (D : Jws → Option Stmt) (Holds : ID → JKey → Prop) (W : World)
    (hW : W.sig = jwsOracle C keyOf msgOf) (r : Resolver) (c : Chain) (h : Produces W r c) (hl : 2 ≤ c.length) (hread : ∀ s ∈ c, ReadFrom msgOf D s)
    (hanchor : ∀ ta ∈ r.anchors, ∃ ks, ta.jwks = some ks ∧ ∀ n ∈ ks, Holds ta.id (keyOf n))
    (k : Nat) (s : Stmt) (hs : c[k]? = some s)
    (htrue : ∀ j x, k < j → c[j]? = some x → Truthful C keyOf D Holds x.iss) : SignedByEntity C msgOf Holds s s.iss := by
  refine authentic_from_top C keyOf msgOf D Holds W hW r c h hl hread ?_ k s hs htrue
  rintro pre s1 top ta keys rfl ⟨p, q, hA, hid, _⟩ h4
  obtain ⟨ks, hks, hh⟩ := hanchor ta (by rw [hA]; simp)
  intro ks' hk' n hn
  rcases h4 with ⟨ks2, e1, e2⟩ | ⟨e1, _⟩
  · rw [hks] at e1; cases e1
    rw [hk'] at e2; cases e2
    rw [← hid]; exact hh n hn
  · rw [hks] at e1; cases e1

/-! ## C103 -/

theorem signed_of_issued {C : Crypto} (hC : Scheme C) {keyOf : Nat → JKey} {msgOf : Nat → Jws} {signer : ID → JSigner} {keys : Keys} {s : Stmt} {e : ID}
    (h : IssuedWith C msgOf signer s) (hk : KeysOf C keyOf signer keys e) (he : s.iss = e) : Signed (jwsOracle C keyOf msgOf) keys s := by
  obtain ⟨r, payload, h1, h2⟩ := h
  obtain ⟨ks, h3, h4⟩ := hk
  obtain ⟨p, _, h5⟩ := C94_signed_verifies C hC (signer e) .entityStatement payload (msgOf r) (ks.map keyOf) (by rw [← he]; exact h2) h4
  refine ⟨ks, r, h3, ?_, h1, ?_⟩
  · rintro rfl; simp [verifyWithSet] at h5
  · simp only [verifyWithSet] at h5
    split at h5
    · cases h5
    · split at h5
      · assumption
      · cases h5

/-- **C103**: an entity all of whose superiors up to a configured anchor use this library's signers is resolved: the chain of the path is returned. -/
theorem C103_operated_resolves (C : Crypto) (hC : Scheme C) (keyOf : Nat → JKey) (msgOf : Nat → Jws) (signer : ID → JSigner) (W : World)
    (hW : W.sig = jwsOracle C keyOf msgOf) (r : Resolver) (fuel : Nat) (cs : List Chain) (h : r.chainsNoMeta W fuel = .ok (some cs)) (hst : r.start ≠ "")
    (s0 : Stmt) (hs : W.start r.start = some s0) (steps : List Step)
    (hp : OperatedPath C keyOf msgOf signer W r.anchors (restrictTypes r.types s0) steps) (c : Chain) (hc : IsChainOf (restrictTypes r.types s0) steps c) :
    c ∈ cs := by
  refine C10_complete W r fuel cs h hst s0 hs steps ?_ c hc
  have below : ∀ k st, steps[k]? = some st → ∃ e, (entities (restrictTypes r.types s0) steps)[k]? = some e ∧
      StepOk W r.anchors (restrictTypes r.types s0) steps k e st := by
    intro k st hk
    obtain ⟨e, h1, _, _⟩ := entity_below (restrictTypes r.types s0) steps k st hk
    exact ⟨e, h1, hp.steps_ok k e st h1 hk⟩
  refine ⟨hp.steps_ok, ?_, ?_, ?_⟩
  · intro st h0
    obtain ⟨e, h1, ok⟩ := below 0 st h0
    rw [hW]
    refine signed_of_issued hC hp.leaf_issued (hp.published st (List.mem_of_getElem? h0)) ?_
    simp only [entities, List.getElem?_cons_zero, Option.some.injEq] at h1
    rw [ok.sub_sub, h1]
  · intro k st next h0 h1
    obtain ⟨e, he, ok⟩ := below (k+1) next h1
    obtain ⟨e', _, ok'⟩ := below k st h0
    have hee : e = st.ec := by
      simp only [entities, List.getElem?_cons_succ, List.getElem?_map, h0, Option.map_some, Option.some.injEq] at he
      exact he.symm
    have hi := hp.issued st (List.mem_of_getElem? h0)
    have hk := hp.published next (List.mem_of_getElem? h1)
    rw [hW]
    exact ⟨signed_of_issued hC hi.1 hk (by rw [ok.sub_sub, hee]), signed_of_issued hC hi.2 hk (by rw [ok.sub_sub, hee, ok'.sub_iss])⟩
  · obtain ⟨st, ta, keys, h1, h2, h3, h4⟩ := hp.top
    obtain ⟨k, hk⟩ := List.mem_iff_getElem?.mp (List.mem_of_getLast? h1)
    obtain ⟨e, _, ok⟩ := below k st hk
    have hi := hp.issued st (List.mem_of_getLast? h1)
    obtain ⟨_, _, _, hid, _⟩ := h2
    rw [hW]
    exact ⟨st, ta, keys, h1, ⟨_, _, ‹_›, hid, ‹_›⟩, h3, signed_of_issued hC hi.1 h4 hid.symm, signed_of_issued hC hi.2 h4 (by rw [ok.sub_iss, hid])⟩

/-! ## An example for all three -/

namespace ExE

/-- The JWTs: number `n` is signed by the issuer of statement `n`. -/
def key : Nat → Nat
  | 1 => 1
  | 2 => 2
  | 5 => 2
  | _ => 3

def msg (n : Nat) : Jws := ⟨[("n", .arr (List.replicate n .null))], [⟨some "entity-statement+jwt", some (String.ofList (List.replicate (key n) 'k')), some "ES512", key n⟩]⟩

def lEC : Stmt := { Ex.leafEC with hints := ["i"], raw := some 1 }
def il : Stmt := { Ex.mk "i" "l" (some [1]) 2 with raw := some 2 }
def ti : Stmt := Ex.mk "t" "i" (some [2]) 3
def tEC : Stmt := { Ex.tEC with raw := some 4 }
def iEC : Stmt := { Ex.iEC with raw := some 5 }

def stmt : Nat → Option Stmt
  | 1 => some lEC
  | 2 => some il
  | 3 => some ti
  | 4 => some tEC
  | 5 => some iEC
  | _ => none

/-- Reading a JWT: the statement with its number, if the signature is that of message `n`. -/
def D (m : Jws) : Option Stmt :=
  match m.payload, m.sigs with
  | [(_, .arr l)], [s] => if s.sig = key l.length then stmt l.length else none
  | _, _ => none

/-- Bodies `""`, `"x"`, `"xx"`, … are the JWTs. -/
def P (body : String) : Option Jws := some (msg body.toList.length)

/-- The world after the lookups below. -/
def W : World where
  start := fun id => if id = "l" then some lEC else none
  ec := fun _ id => if id = "i" then some iEC else if id = "t" then some tEC else none
  fetch := fun _ ep sub iss =>
    if ep = "i/fetch" ∧ sub = "l" ∧ iss = "i" then some il else if ep = "t/fetch" ∧ sub = "i" ∧ iss = "t" then some ti else none
  nowEC := fun _ => 50
  nowSub := fun _ => 50
  host := Ex.hostOf
  sig := jwsOracle exCrypto exKeyOf msg

def chain : Chain := [lEC, il, ti, tEC]

theorem run : Ex.R.chainsNoMeta W 5 = .ok (some [chain]) := by rfl

theorem produces : Produces W Ex.R chain := ⟨5, [chain], .inl run, by simp⟩

/-- The lookups of this resolution. -/
theorem reach : ∃ s, FReach .memory exHashes P D LibraryLookup s ∧ AnswersOf s W := by
  have h1 := FReach.step .init (FStep.miss (b := .memory) (H := exHashes) (P := P) (D := D) (Allowed := LibraryLookup) (s := FState.init)
    (o := .config "l") (now := 0) trivial rfl)
  have h1 := FReach.step h1 (FStep.obtained (o := .config "l") (a := some ⟨200, "", "x"⟩) (st := lEC) (tUntil := 0) (tSet := 0) (by simp) rfl)
  have h1 := FReach.step h1 (FStep.miss (o := .config "i") (now := 0) trivial rfl)
  have h1 := FReach.step h1 (FStep.obtained (o := .config "i") (a := some ⟨200, "", "xxxxx"⟩) (st := iEC) (tUntil := 0) (tSet := 0) (by simp) rfl)
  have h1 := FReach.step h1 (FStep.miss (o := .fetch "i/fetch" "l" "i") (now := 0) ⟨by decide, iEC, by simp, rfl⟩ rfl)
  have h1 := FReach.step h1 (FStep.obtained (o := .fetch "i/fetch" "l" "i") (a := some ⟨200, "", "xx"⟩) (st := il) (tUntil := 0) (tSet := 0) (by simp) rfl)
  have h1 := FReach.step h1 (FStep.miss (o := .config "t") (now := 0) trivial rfl)
  have h1 := FReach.step h1 (FStep.obtained (o := .config "t") (a := some ⟨200, "", "xxxx"⟩) (st := tEC) (tUntil := 0) (tSet := 0) (by simp) rfl)
  have h1 := FReach.step h1 (FStep.miss (o := .fetch "t/fetch" "i" "t") (now := 0) ⟨by decide, tEC, by simp, rfl⟩ rfl)
  have h1 := FReach.step h1 (FStep.obtained (o := .fetch "t/fetch" "i" "t") (a := some ⟨200, "", "xxx"⟩) (st := ti) (tUntil := 0) (tSet := 0) (by simp) rfl)
  refine ⟨_, h1, ?_, ?_, ?_⟩
  · intro id st h
    simp only [W] at h
    split at h
    · rename_i e; subst e; cases h; simp
    · cases h
  · intro p id st h
    simp only [W] at h
    split at h
    · rename_i e; subst e; cases h; simp
    · split at h
      · rename_i e; subst e; cases h; simp
      · cases h
  · intro p ep sub iss st h
    simp only [W] at h
    split at h
    · rename_i e; obtain ⟨rfl, rfl, rfl⟩ := e; cases h; simp
    · split at h
      · rename_i e; obtain ⟨rfl, rfl, rfl⟩ := e; cases h; simp
      · cases h

/-- Non-vacuity of C101. -/
example : ∃ s, (FReach .memory exHashes P D LibraryLookup s ∧ AnswersOf s W) ∧ Produces W Ex.R chain ∧ FromIssuer s.served "l" "i" il := by
  obtain ⟨s, h⟩ := reach
  exact ⟨s, h, produces, (C101_chain_from_issuers _ _ _ _ s h.1 W h.2 Ex.R chain produces).2 il (by simp [chain])⟩

/-- Who holds which key. -/
def Holds (e : ID) (k : JKey) : Prop := (e = "l" ∧ k.key = 1) ∨ (e = "i" ∧ k.key = 2) ∨ (e = "t" ∧ k.key = 3)

/-- Everybody is truthful. -/
theorem truthful (e : ID) : Truthful exCrypto exKeyOf D Holds e := by
  intro k m s hk ⟨sg, hm, k', hk', _, _, _, alg, _, hv⟩ hD
  cases List.mem_singleton.mp hk'
  have hsig : sg.sig = k.key := by
    simp only [exCrypto, Bool.and_eq_true, beq_iff_eq] at hv
    exact hv.2
  unfold D at hD
  split at hD
  · rename_i l sg' _ hsg
    rw [hsg] at hm
    cases List.mem_singleton.mp hm
    split at hD
    · rename_i he
      rw [hsig] at he
      generalize l.length = n at hD he
      unfold Holds at hk
      rcases n with _ | _ | _ | _ | _ | _ | n
      · cases hD
      all_goals first
        | (cases hD
           rcases hk with ⟨rfl, h⟩ | ⟨rfl, h⟩ | ⟨rfl, h⟩ <;> rw [h] at he <;> first
             | (exact absurd he (by decide))
             | (refine ⟨rfl, ?_⟩
                intro ks hks x hx
                cases hks
                cases List.mem_singleton.mp hx
                simp [Holds, exKeyOf, lEC, il, ti, tEC, iEC, Ex.leafEC, Ex.mk, Ex.tEC, Ex.iEC]))
        | cases hD
    · cases hD
  · cases hD

/-- Non-vacuity of C102. -/
example : SignedByEntity exCrypto msg Holds lEC "l" := by
  refine C102_authentic exCrypto exKeyOf msg D Holds W rfl Ex.R chain produces (by decide) ?_ ?_ 0 lEC rfl (fun _ _ _ _ => truthful _)
  · intro s hs r hr
    simp only [chain, List.mem_cons, List.not_mem_nil, or_false] at hs
    rcases hs with rfl | rfl | rfl | rfl <;> cases hr <;> exact ⟨_, rfl, rfl, rfl, rfl⟩
  · intro ta hta
    cases List.mem_singleton.mp hta
    refine ⟨[3], rfl, ?_⟩
    intro n hn
    cases List.mem_singleton.mp hn
    simp [Holds, exKeyOf]

/-- The signers. -/
def signer (e : ID) : JSigner := ⟨some (if e = "l" then 1 else if e = "i" then 2 else 3), "ES512"⟩

/-- Non-vacuity of C103. -/
example : ∃ steps, OperatedPath exCrypto exKeyOf msg signer W Ex.R.anchors (restrictTypes Ex.R.types lEC) steps ∧
    IsChainOf (restrictTypes Ex.R.types lEC) steps chain := by
  obtain ⟨steps, hv, hc⟩ := (C10_sound_and_complete W Ex.R 5 _ run (by decide) lEC rfl chain (by decide)).mp (by simp)
  refine ⟨steps, ?_, hc⟩
  obtain ⟨st, hlast, he⟩ := hc
  obtain ⟨h1, h2⟩ := List.cons.inj (show lEC :: ([il, ti] ++ [tEC]) = lEC :: (steps.map Step.sub ++ [st.ec]) from he)
  obtain ⟨h3, h4⟩ := List.append_inj' h2 rfl
  have hec : ∀ s ∈ steps, (s.sub = il ∧ s.ec = iEC) ∨ (s.sub = ti ∧ s.ec = tEC) := by
    intro s hs
    obtain ⟨k, hk⟩ := List.mem_iff_getElem?.mp hs
    obtain ⟨e, ok, _⟩ := step_ok hv k s hk
    have hm : s.sub ∈ [il, ti] := by rw [h3]; exact List.mem_map.mpr ⟨s, hs, rfl⟩
    have hsrv := ok.served
    simp only [List.mem_cons, List.not_mem_nil, or_false] at hm
    rcases hm with hm | hm
    · left
      refine ⟨hm, ?_⟩
      rw [← ok.sub_iss, hm] at hsrv
      exact (Option.some.inj hsrv).symm
    · right
      refine ⟨hm, ?_⟩
      rw [← ok.sub_iss, hm] at hsrv
      exact (Option.some.inj hsrv).symm
  refine ⟨hv.steps_ok, ⟨1, some _, rfl, rfl⟩, ?_, ?_, ?_⟩
  · intro s hs
    rcases hec s hs with ⟨e1, e2⟩ | ⟨e1, e2⟩ <;> rw [e1, e2]
    · exact ⟨⟨5, some _, rfl, rfl⟩, ⟨2, some _, rfl, rfl⟩⟩
    · exact ⟨⟨4, some _, rfl, rfl⟩, ⟨3, some _, rfl, rfl⟩⟩
  · intro s hs
    rcases hec s hs with ⟨e1, e2⟩ | ⟨e1, e2⟩ <;> rw [e1]
    · exact ⟨[1], rfl, rfl⟩
    · exact ⟨[2], rfl, rfl⟩
  · refine ⟨st, ⟨"t", some [3]⟩, some [3], hlast, ?_, .inl ⟨[3], rfl, rfl⟩, [3], rfl, rfl⟩
    have : tEC = st.ec := by simpa using h4
    rw [← this]
    exact ⟨[], [], rfl, rfl, by simp⟩

end ExE

end Oidfed
