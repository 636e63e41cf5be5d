import Verif.Spec.Fetch
import Verif.Lemmas.Cache
import Verif.Examples.Federation
/-!
# Properties of obtaining statements: C98, C99, C100
-/

namespace Oidfed
open Spec

/-! ## C98 -/

theorem leadsTo_mono {l l' : List (Request × Stmt)} {id : ID} {u : String} (h : LeadsTo l id u) (hs : ∀ x ∈ l, x ∈ l') : LeadsTo l' id u := by
  induction h with
  | own => exact .own
  | named h1 _ h3 ih => exact .named (hs _ h1) ih h3

theorem fromIssuer_mono {l l' : List (Request × Stmt)} {sub iss : ID} {st : Stmt} (h : FromIssuer l sub iss st) (hs : ∀ x ∈ l, x ∈ l') :
    FromIssuer l' sub iss st := by
  obtain ⟨q, st0, h1, h2, h3⟩ := h
  refine ⟨q, st0, hs _ h1, h2, ?_⟩
  rcases h3 with h3 | ⟨h3, h4⟩
  · exact .inl h3
  · exact .inr ⟨h3, leadsTo_mono h4 hs⟩

theorem fetchEndpoint_viaCache (s : Stmt) : s.viaCache.fetchEndpoint = s.fetchEndpoint := by
  unfold Stmt.viaCache Stmt.fetchEndpoint
  cases s.metadata with
  | none => rfl
  | some m =>
    simp only [Option.map_some, Metadata.viaCache]
    cases m.known .fed <;> rfl

/-- What holds of the cells of the cache: a statement in it comes from its issuer. -/
def CellsOk (served : List (Request × Stmt)) (S : Store Item) : Prop :=
  ∀ sub iss e st, S (entityStmtKey (bytes sub) (bytes iss)) = some e → e.val = .stmt st → FromIssuer served sub iss st

theorem set_cell {α : Type} (b : Backend) (S : Store α) (now k v ttl) {e : CEntry α} (h : b.set S now k v ttl k = some e) : e.val = v := by
  unfold Backend.set at h
  cases b <;> simp only at h <;> split at h <;> (try split at h) <;> rw [put_same] at h <;> cases h <;> rfl

theorem cells_get {b : Backend} {served : List (Request × Stmt)} {S : Store Item} {now : Time} {sub iss : ID} {st : Stmt} (h : CellsOk served S)
    (hg : stmtCacheGet b S now sub iss = some st) : FromIssuer served sub iss st := by
  unfold stmtCacheGet at hg
  split at hg
  · rename_i s hs
    cases hg
    unfold Backend.get at hs
    split at hs
    · cases hs
    · rename_i e he
      refine h sub iss e _ he ?_
      split at hs
      · exact Option.some.inj hs
      · split at hs
        · cases hs
        · exact Option.some.inj hs
      · split at hs
        · exact Option.some.inj hs
        · cases hs
  · cases hg

/-- The invariant. -/
structure FetchInv (s : FState) : Prop where
  cells : CellsOk s.served s.store
  returned : ∀ o st, (o, st) ∈ s.returned → FromIssuer s.served o.sub o.iss st
  started : ∀ o ∈ s.started, o = .config o.iss ∨ (o.request.sub = some o.sub ∧ LeadsTo s.served o.iss o.request.url)

theorem allowed_ok {s : FState} (hi : FetchInv s) {o : Lookup} (ha : LibraryLookup s o) :
    o = .config o.iss ∨ (o.request.sub = some o.sub ∧ LeadsTo s.served o.iss o.request.url) := by
  cases o with
  | config id => exact .inl rfl
  | fetch ep sub iss =>
    obtain ⟨hne, st, h1, h2⟩ := ha
    refine .inr ⟨rfl, ?_⟩
    show LeadsTo s.served iss ep
    obtain ⟨q, st0, h3, h4, h5⟩ := hi.returned _ _ h1
    have he : st0.fetchEndpoint = ep := by
      rcases h4 with h4 | h4
      · rw [← h4, h2]
      · rw [← h2, h4, fetchEndpoint_viaCache]
    rw [← he]
    refine .named h3 ?_ (by rw [he]; exact hne)
    rcases h5 with ⟨h5, _⟩ | ⟨_, h5⟩
    · rw [h5]; exact .own
    · exact h5

theorem fetchInv_step {b : Backend} {H : Hashes} {P : String → Option Jws} {D : Jws → Option Stmt} {s t : FState} (hi : FetchInv s)
    (h : FStep b H P D LibraryLookup s t) : FetchInv t := by
  cases h with
  | @hit o now st ha hg =>
    refine ⟨hi.cells, ?_, ?_⟩
    · intro o' st' hm
      rcases List.mem_cons.mp hm with hm | hm
      · cases hm; exact cells_get hi.cells hg
      · exact hi.returned _ _ hm
    · intro o' hm
      rcases List.mem_cons.mp hm with rfl | hm
      · exact allowed_ok hi ha
      · exact hi.started _ hm
  | @miss o now ha hg =>
    refine ⟨hi.cells, hi.returned, ?_⟩
    intro o' hm
    rcases List.mem_cons.mp hm with rfl | hm
    · exact allowed_ok hi ha
    · exact hi.started _ hm
  | @obtained o a st tu ts ho hp =>
    have hsub : ∀ x ∈ s.served, x ∈ (o.request, st) :: s.served := fun x hx => List.mem_cons_of_mem _ hx
    have hnew : ∀ st', st' = st ∨ st' = st.viaCache → FromIssuer ((o.request, st) :: s.served) o.sub o.iss st' := by
      intro st' hst
      refine ⟨o.request, st, List.mem_cons_self, hst, ?_⟩
      rcases hi.started o ho with h | ⟨h1, h2⟩
      · rw [h]; exact .inl ⟨rfl, rfl⟩
      · exact .inr ⟨h1, leadsTo_mono h2 hsub⟩
    refine ⟨?_, ?_, ?_⟩
    · intro sub iss e st' he hv
      by_cases hk : entityStmtKey (bytes sub) (bytes iss) = entityStmtKey (bytes o.sub) (bytes o.iss)
      · obtain ⟨h1, h2⟩ := entityStmtKey_inj hk
        have h1 := bytes_inj h1
        have h2 := bytes_inj h2
        subst h1; subst h2
        have := set_cell b s.store ts _ _ _ he
        rw [hv] at this
        cases this
        exact hnew _ (.inr rfl)
      · have he' : s.store (entityStmtKey (bytes sub) (bytes iss)) = some e := by
          rw [← he]; exact (set_other b s.store ts _ _ hk).symm
        exact fromIssuer_mono (hi.cells sub iss e st' he' hv) hsub
    · intro o' st' hm
      rcases List.mem_cons.mp hm with hm | hm
      · cases hm; exact hnew _ (.inl rfl)
      · exact fromIssuer_mono (hi.returned _ _ hm) hsub
    · intro o' hm
      rcases hi.started o' hm with h | ⟨h1, h2⟩
      · exact .inl h
      · exact .inr ⟨h1, leadsTo_mono h2 hsub⟩
  | @other sys k v now ttl hs =>
    refine ⟨?_, hi.returned, hi.started⟩
    intro sub iss e st' he hv
    have hk : entityStmtKey (bytes sub) (bytes iss) ≠ cacheKey (bytes sys.name) k := fun h => hs (key_inj h).1.symm
    exact hi.cells sub iss e st' (by rw [← he]; exact (set_other b s.store now v ttl hk).symm) hv
  | @lose k =>
    refine ⟨?_, hi.returned, hi.started⟩
    intro sub iss e st' he hv
    by_cases hk : entityStmtKey (bytes sub) (bytes iss) = k
    · subst hk; exact absurd (he.symm.trans (put_same s.store _ none)) (by simp)
    · exact hi.cells sub iss e st' (by rw [← he]; exact (put_other s.store none hk).symm) hv

/-- **C98** (part): with the lookups the library itself makes, by any number of goroutines, over any history of the shared cache and whatever is served, every
statement returned for a subject and an issuer comes from that issuer. -/
theorem C98_from_issuer_partial (b : Backend) (H : Hashes) (P : String → Option Jws) (D : Jws → Option Stmt) (s : FState)
    (h : FReach b H P D LibraryLookup s) (o : Lookup) (st : Stmt) (hr : (o, st) ∈ s.returned) : FromIssuer s.served o.sub o.iss st := by
  have : FetchInv s := by
    clear hr
    induction h with
    | init =>
      refine ⟨?_, ?_, ?_⟩
      · intro _ _ _ _ he; cases he
      · intro _ _ hm; cases hm
      · intro _ hm; cases hm
    | step _ hs ih => exact fetchInv_step ih hs
  exact this.returned o st hr

/-- Bodies that are JWTs naming a statement of the example federation. -/
def exParse (body : String) : Option Jws := some ⟨[("n", .str body)], [⟨some "entity-statement+jwt", some "k", some "ES512", 0⟩]⟩

/-- The statements behind the names. -/
def exDecode (j : Jws) : Option Stmt :=
  match j.payload with
  | [(_, .str n)] => if n = "i" then some Ex.iEC else if n = "il" then some (Ex.mk "i" "l" (some [1]) 2)
    else if n = "forged" then some (Ex.mk "t" "t" (some [666]) 7) else none
  | _ => none

/-- Hash functions for the examples. -/
def exHashes : Hashes := ⟨fun _ _ _ => [], fun _ _ => []⟩

/-- Non-vacuity: the library looks up `i`, then the statement about `l` at the endpoint `i` names, and then finds `i` in the cache. -/
example : ∃ s, FReach .memory exHashes exParse exDecode LibraryLookup s ∧
    (Lookup.fetch "i/fetch" "l" "i", Ex.mk "i" "l" (some [1]) 2) ∈ s.returned ∧ (Lookup.config "i", Ex.iEC.viaCache) ∈ s.returned := by
  have h1 := FReach.step .init (FStep.miss (b := .memory) (H := exHashes) (P := exParse) (D := exDecode) (Allowed := LibraryLookup) (s := FState.init)
    (o := .config "i") (now := 0) trivial rfl)
  have h2 := FReach.step h1 (FStep.obtained (o := .config "i") (a := some ⟨200, "", "i"⟩) (st := Ex.iEC) (tUntil := 0) (tSet := 0) (by simp) rfl)
  have h3 := FReach.step h2 (FStep.miss (o := .fetch "i/fetch" "l" "i") (now := 0) ⟨by decide, Ex.iEC, by simp, rfl⟩ rfl)
  have h4 := FReach.step h3 (FStep.obtained (o := .fetch "i/fetch" "l" "i") (a := some ⟨200, "", "il"⟩) (st := Ex.mk "i" "l" (some [1]) 2) (tUntil := 0)
    (tSet := 0) (by simp) rfl)
  have h5 := FReach.step h4 (FStep.hit (o := .config "i") (now := 0) (st := Ex.iEC.viaCache) trivial rfl)
  exact ⟨_, h5, by simp, by simp⟩

/-- **C98 fails** for callers of `FetchEntityStatement`: the endpoint is not part of the cache key, so a statement fetched from any server under the name of an entity
is returned later as the configuration of this entity, which never served anything. -/
theorem C98_direct_fetch_refuted :
    ∃ s st, FReach .memory exHashes exParse exDecode AnyLookup s ∧ (Lookup.config "t", st) ∈ s.returned ∧ ¬ FromIssuer s.served "t" "t" st := by
  have h1 := FReach.step .init (FStep.miss (b := .memory) (H := exHashes) (P := exParse) (D := exDecode) (Allowed := AnyLookup) (s := FState.init)
    (o := .fetch "evil" "t" "t") (now := 0) trivial rfl)
  have h2 := FReach.step h1 (FStep.obtained (o := .fetch "evil" "t" "t") (a := some ⟨200, "", "forged"⟩) (st := Ex.mk "t" "t" (some [666]) 7) (tUntil := 0)
    (tSet := 0) (by simp) rfl)
  have h3 := FReach.step h2 (FStep.hit (o := .config "t") (now := 0) (st := Ex.mk "t" "t" (some [666]) 7) trivial rfl)
  refine ⟨_, Ex.mk "t" "t" (some [666]) 7, h3, by simp, ?_⟩
  rintro ⟨q, st0, h4, _, h6⟩
  simp only [FState.init, List.mem_singleton] at h4
  cases h4
  rcases h6 with ⟨h6, _⟩ | ⟨_, h6⟩
  · exact absurd (congrArg Request.sub h6) (by simp [Lookup.request])
  · have key : ∀ u, LeadsTo [((Lookup.fetch "evil" "t" "t").request, Ex.mk "t" "t" (some [666]) 7)] "t" u → u = configURL "t" := by
      intro u hu
      induction hu with
      | own => rfl
      | named h1 _ h3 _ =>
        simp only [List.mem_singleton] at h1
        cases h1
        exact absurd rfl h3
    exact absurd (key _ h6) (by decide)

/-! ## C99 -/

/-- **C99** (part): a statement is obtained exactly if the server answered, did not report an error, and the body is a JWT stating the type of entity statements that can be
decoded. -/
theorem C99_obtained_partial (P : String → Option Jws) (D : Jws → Option Stmt) (a : Option Answer) (st : Stmt) :
    obtain? P D a = some st ↔ ∃ x j, a = some x ∧ (x.status < 400 ∨ x.err = "") ∧ P x.body = some j ∧
      (∃ sg rest, j.sigs = sg :: rest ∧ sg.typ = some "entity-statement+jwt") ∧ D j = some st := by
  constructor
  · intro h
    unfold obtain? httpBody at h
    cases a with
    | none => cases h
    | some x =>
      simp only at h
      split at h
      · cases h
      · rename_i hs
        simp only [Option.bind_some, parseStmt] at h
        split at h
        · cases h
        · rename_i j hj
          split at h
          · rename_i ht
            refine ⟨x, j, rfl, ?_, hj, ?_, h⟩
            · by_cases h' : x.err = ""
              · exact .inr h'
              · exact .inl (Nat.lt_of_not_le fun h'' => hs ⟨h'', h'⟩)
            · unfold verifyType at ht
              split at ht
              · cases ht
              · rename_i sg rest hr
                exact ⟨sg, rest, hr, by simpa using ht⟩
          · cases h
  · rintro ⟨x, j, rfl, h1, h2, ⟨sg, rest, h3, h4⟩, h5⟩
    have hs : ¬ (400 ≤ x.status ∧ x.err ≠ "") := by
      rintro ⟨h6, h7⟩
      rcases h1 with h1 | h1
      · omega
      · exact h7 h1
    unfold obtain? httpBody
    simp only [hs, if_false, Option.bind_some, parseStmt, h2, verifyType, h3, h4, beq_self_eq_true, if_true]
    exact h5

/-- The right-hand side is met. -/
example : obtain? exParse exDecode (some ⟨200, "", "i"⟩) = some Ex.iEC ∧ obtain? exParse exDecode (some ⟨404, "not_found", "i"⟩) = none := ⟨rfl, rfl⟩

/-- **C99 fails**: looking up the configuration of `https://victim` yields, from an answer with status 404, a statement that is about and issued by somebody else, has
expired and does not verify with its own keys. -/
theorem C99_not_checked_refuted :
    ∃ (a : Answer) (st : Stmt) (s : FState) (now : Time) (sig : SigOracle), FReach .memory exHashes exParse exDecode LibraryLookup s ∧
      (Lookup.config "https://victim", st) ∈ s.returned ∧ obtain? exParse exDecode (some a) = some st ∧ a.status = 404 ∧
      st.iss ≠ "https://victim" ∧ st.sub ≠ "https://victim" ∧ st.timeValid now = false ∧ st.verify sig st.jwks = false := by
  have h1 := FReach.step .init (FStep.miss (b := .memory) (H := exHashes) (P := exParse) (D := exDecode) (Allowed := LibraryLookup) (s := FState.init)
    (o := .config "https://victim") (now := 1000) trivial rfl)
  have h2 := FReach.step h1 (FStep.obtained (o := .config "https://victim") (a := some ⟨404, "", "forged"⟩) (st := Ex.mk "t" "t" (some [666]) 7) (tUntil := 1000)
    (tSet := 1000) (by simp) rfl)
  exact ⟨⟨404, "", "forged"⟩, Ex.mk "t" "t" (some [666]) 7, _, 1000, Ex.sigOf, h2, by simp, rfl, rfl, by decide, by decide, by decide, by decide⟩

/-! ## C100 -/

theorem trim_spec (s : List Char) : s = trimSlash s ∨ s = trimSlash s ++ ['/'] := by
  unfold trimSlash
  split
  · rename_i h
    right
    obtain ⟨hne, hl⟩ := List.getLast?_eq_some_iff.mp h
    simp [hl]
  · exact .inl rfl

/-- **C100** (part): two entities have the same configuration URL only if their identifiers differ in a final slash at most. -/
theorem C100_config_url_partial (a b : ID) (h : configURL a = configURL b) :
    a.toList = b.toList ∨ a.toList = b.toList ++ ['/'] ∨ b.toList = a.toList ++ ['/'] := by
  have h' := congrArg String.toList h
  simp only [configURL, String.toList_ofList] at h'
  have ht : trimSlash a.toList = trimSlash b.toList := List.append_cancel_right h'
  rcases trim_spec a.toList with ha | ha <;> rcases trim_spec b.toList with hb | hb
  · left; rw [ha, hb, ht]
  · right; right; rw [hb, ← ht, ← ha]
  · right; left; rw [ha, ht, ← hb]
  · left; rw [ha, hb, ht]

/-- **C100** (location): the configuration of an entity is looked for below its identifier, at the well-known path. -/
theorem C100_location (id : ID) : ∃ base, (id.toList = base ∧ base.getLast? ≠ some '/' ∨ id.toList = base ++ ['/']) ∧
    (configURL id).toList = base ++ "/.well-known/openid-federation".toList := by
  refine ⟨trimSlash id.toList, ?_, by simp only [configURL, String.toList_ofList]⟩
  by_cases h : id.toList.getLast? = some '/'
  · right
    obtain ⟨ys, hl⟩ := List.getLast?_eq_some_iff.mp h
    simp [trimSlash, hl]
  · left
    simp [trimSlash, h]

example : configURL "https://a.org/x/" = "https://a.org/x/.well-known/openid-federation" := by decide

/-- **C100 fails** as it stands: an identifier and the same with a final slash share the URL. -/
theorem C100_final_slash_refuted : ∃ a b : ID, a ≠ b ∧ configURL a = configURL b := ⟨"https://a", "https://a/", by decide, by decide⟩

end Oidfed
