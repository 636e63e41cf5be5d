import Verif.Lemmas.CacheResolve
import Verif.Props.Resolver
import Verif.Examples.Federation
/-!
# Properties of the cache, of what is cached, and of the time check (C16, C32–C36, C128)

The histories range over every sequence of writes, losses and reads, at every clock reading.
-/

namespace Oidfed
open Spec

/-! ## C32 -/

/-- C32: different (subject, issuer) pairs have different cache keys. Ids are arbitrary byte sequences. -/
theorem C32_statement_keys_injective (sub iss sub' iss' : Bytes) (h : entityStmtKey sub iss = entityStmtKey sub' iss') :
    sub = sub' ∧ iss = iss' := entityStmtKey_inj h

/-- C32: keys of different sub caches never coincide, whatever the keys inside are. -/
theorem C32_subsystems_disjoint (s s' : Subsystem) (hs : s ≠ s') (k k' : Bytes) :
    cacheKey (bytes s.name) k ≠ cacheKey (bytes s'.name) k' := fun h => hs (key_inj h).1

/-- C32 inside one sub cache: different inner keys give different keys. -/
theorem C32_inner_keys_injective (s : Subsystem) (k k' : Bytes) (h : k ≠ k') :
    cacheKey (bytes s.name) k ≠ cacheKey (bytes s.name) k' := fun e => h (key_inj e).2

/-- two pairs whose plain concatenation would coincide -/
example : bytes "a:" ++ bytes ":" ++ bytes "b" = bytes "a" ++ bytes ":" ++ bytes ":b" ∧
    entityStmtKey (bytes "a:") (bytes "b") ≠ entityStmtKey (bytes "a") (bytes ":b") := by
  refine ⟨by rfl, fun h => ?_⟩
  have := (entityStmtKey_inj h).1
  revert this
  decide

/-! ## C33 -/

/-- C33 as stated is false for both stores: a lifetime of −1 ns (a statement cached one nanosecond after its expiry) means "no
expiry" to both of them. -/
theorem C33_only_while_alive_refuted (b : Backend) :
    ¬ ∀ (evs : List (CacheEv Nat)) (now : Time) (k : Bytes) (v : Nat), b.get (b.run evs) now k = some v →
      ∃ t ttl, LastWrite evs k t v ttl ∧ Alive t ttl now := by
  intro h
  have hg : b.get (b.run [.set 100 [] 7 (-1)]) 1000000 [] = some 7 := by cases b <;> rfl
  obtain ⟨t, ttl, ⟨pre, post, he, _⟩, ha⟩ := h _ _ _ _ hg
  have hpre : pre = [] := by
    cases pre with
    | nil => rfl
    | cons a pre =>
      have := congrArg List.length he
      simp at this
  subst hpre
  simp only [List.nil_append, List.cons.injEq, CacheEv.set.injEq] at he
  obtain ⟨⟨rfl, _, _, rfl⟩, _⟩ := he
  exact absurd ha (by unfold Alive; decide)

/-- C33 is false for Redis for every lifetime that is already over: the value is stored without expiry. -/
theorem C33_redis_expired_kept_refuted (ttl : Int) (h : ttl ≤ 0) (h1 : ttl ≠ -1) (now : Time) (k : Bytes) (v : Nat) :
    Backend.redis.get (Backend.redis.run [.set 0 k v ttl]) now k = some v := by
  simp only [Backend.run, List.foldl_cons, List.foldl_nil, Backend.step, Backend.set]
  rw [if_neg (by omega), if_neg h1]
  simp [Backend.get, Store.put]

/-- C33 for the in-memory store: a read returns the last value written under that key, while its lifetime lasts; the only
exception is a lifetime of exactly −1 ns. -/
theorem C33_memory_partial {α : Type} (evs : List (CacheEv α)) (now : Time) (k : Bytes) (v : α)
    (h : Backend.memory.get (Backend.memory.run evs) now k = some v) :
    ∃ t ttl, LastWrite evs k t v ttl ∧ (Alive t ttl now ∨ ttl = -1) := by
  obtain ⟨t, ttl, h1, h2 | h2⟩ := memory_get h
  · exact ⟨t, ttl, h1, .inr h2⟩
  · exact ⟨t, ttl, h1, .inl h2.2⟩

/-- C33 for Redis: a read returns the last value written under that key; if it was written with a positive lifetime, then only while
that lasts (at least one millisecond). Missing: lifetimes that are not positive, for which it is false. -/
theorem C33_redis_partial {α : Type} (evs : List (CacheEv α)) (now : Time) (k : Bytes) (v : α)
    (h : Backend.redis.get (Backend.redis.run evs) now k = some v) :
    ∃ t ttl, LastWrite evs k t v ttl ∧ (0 < ttl → Alive t (max ttl millisecond) now) := by
  obtain ⟨t, ttl, h1, h2 | h2⟩ := redis_get h
  · exact ⟨t, ttl, h1, fun h => absurd h (by omega)⟩
  · refine ⟨t, ttl, h1, fun _ => ?_⟩
    have h3 := redisTTL_le ttl
    have h4 := h2.2
    unfold Alive
    exact Int.le_trans (Int.le_of_lt h4) (Int.add_le_add_left h3 t)

/-- C33, the other half: what was written and not lost is found as long as its (positive) lifetime lasts. -/
theorem C33_memory_found_partial {α : Type} (evs : List (CacheEv α)) (now : Time) (k : Bytes) (v : α) (t : Time) (ttl : Int)
    (h : LastWriteKept evs k t v ttl) (hp : 0 < ttl) (ha : Alive t ttl now) :
    Backend.memory.get (Backend.memory.run evs) now k = some v := by
  obtain ⟨S, hS⟩ := kept_cell .memory h
  unfold Backend.get
  rw [hS]
  simp only [Backend.set]
  rw [if_neg (by omega), if_neg (by omega), put_same]
  simp only
  rw [if_neg (Int.not_lt.mpr ha)]

/-- C33, the other half for Redis: found as long as the lifetime in whole milliseconds lasts. -/
theorem C33_redis_found_partial {α : Type} (evs : List (CacheEv α)) (now : Time) (k : Bytes) (v : α) (t : Time) (ttl : Int)
    (h : LastWriteKept evs k t v ttl) (hp : 0 < ttl) (ha : now < t + ttl / millisecond * millisecond) :
    Backend.redis.get (Backend.redis.run evs) now k = some v := by
  obtain ⟨S, hS⟩ := kept_cell .redis h
  unfold Backend.get
  rw [hS]
  simp only [Backend.set]
  rw [if_pos (by omega), put_same]
  simp only
  rw [if_pos]
  exact Int.lt_of_lt_of_le ha (Int.add_le_add_left (Int.le_max_right _ _) t)

/-- a history in which the key is written twice, another key is lost, and the second value is read in time -/
def exHist : List (CacheEv Nat) := [.set 0 [1] 7 100, .set 10 [2] 8 100, .set 20 [1] 9 3000000, .lose [2]]

example : LastWriteKept exHist [1] 20 9 3000000 ∧ Alive 20 3000000 500 ∧
    Backend.memory.get (Backend.memory.run exHist) 500 [1] = some 9 ∧
    Backend.redis.get (Backend.redis.run exHist) 500 [1] = some 9 ∧
    Backend.memory.get (Backend.memory.run exHist) 4000000 [1] = none ∧
    Backend.memory.get (Backend.memory.run exHist) 500 [2] = none := by
  refine ⟨⟨[.set 0 [1] 7 100, .set 10 [2] 8 100], [.lose [2]], rfl, by simp, by simp⟩, by unfold Alive; decide, ?_⟩
  exact ⟨rfl, rfl, rfl, rfl⟩

/-- C33 for entity statements is false with Redis: a statement obtained after its expiry is stored for good and then served at
every later moment. -/
theorem C33_statement_redis_refuted :
    ¬ ∀ (H : Hashes) (evs : List (CacheEv Item)), (∀ e ∈ evs, LibraryEv H e) → ∀ (now : Time) (sub iss : ID) (s : Stmt),
      stmtCacheGet .redis (Backend.redis.run evs) now sub iss = some s →
      ∃ st tu ts, (Write.stmt sub iss st tu ts).ev H ∈ evs ∧ now ≤ st.exp + (ts - tu) := by
  intro h
  let H : Hashes := ⟨fun _ _ _ => [], fun _ _ => []⟩
  have hg : stmtCacheGet .redis (Backend.redis.run [(Write.stmt "l" "i" (Ex.mk "i" "l" none 0) 200 200).ev H]) 1000 "l" "i"
      = some (Ex.mk "i" "l" none 0) := by
    simp only [stmtCacheGet, Backend.run, List.foldl_cons, List.foldl_nil, Backend.step, Write.ev, Backend.set]
    rw [if_neg (by decide), if_neg (by decide)]
    simp [Backend.get, Store.put, Stmt.viaCache, Ex.mk]
  obtain ⟨st, tu, ts, hm, hn⟩ := h H _ (fun e he => by
    rw [List.mem_singleton.mp he]; exact .inl ⟨_, _, _, _, _, rfl⟩) _ _ _ _ hg
  simp only [List.mem_singleton, Write.ev, CacheEv.set.injEq, Item.stmt.injEq] at hm
  obtain ⟨rfl, _, h1, h2⟩ := hm
  have hexp : st.exp = 100 := by
    have := congrArg Stmt.exp h1
    exact this
  rw [hexp] at h2 hn
  have h2' : untilT tu 100 = -100 := by rw [h2]; decide
  have : tu = 200 := by
    have key : ∀ tu : Int, max minDuration (min maxDuration (100 - tu)) = -100 → tu = 200 := by
      unfold maxDuration minDuration; intro tu h; omega
    exact key tu h2'
  subst this
  exact absurd hn (by decide)

/-- C33 for entity statements with the in-memory store: whatever else happened, a statement served from the cache for
`(sub, iss)` was obtained earlier for that very pair, and it is served no later than its expiry plus the delay between the two clock
readings of the write. Exception: a statement that was exactly 1 ns past its expiry when it was written. -/
theorem C33_statement_memory_partial (H : Hashes) (evs : List (CacheEv Item)) (hl : ∀ e ∈ evs, LibraryEv H e)
    (now : Time) (sub iss : ID) (s : Stmt) (h : stmtCacheGet .memory (Backend.memory.run evs) now sub iss = some s) :
    ∃ st tu ts, (Write.stmt sub iss st tu ts).ev H ∈ evs ∧ s = st.viaCache ∧
      (now ≤ st.exp + (ts - tu) ∨ st.exp = tu - 1) := by
  unfold stmtCacheGet at h
  split at h
  · rename_i hg
    cases h
    obtain ⟨t, ttl, h1, h2⟩ := memory_get hg
    obtain ⟨st, tu, h3, h4, h5⟩ := stmt_write hl h1
    cases h4
    refine ⟨st, tu, t, h3, rfl, ?_⟩
    subst h5
    rcases h2 with h2 | ⟨h2, h6⟩
    · exact .inr (until_neg_one h2)
    · left
      have key : ∀ (n e tt u : Int), u ≤ e - tu → n ≤ tt + u → n ≤ e + (tt - tu) := by intros; omega
      exact key _ _ _ _ (until_pos h2) h6
  · cases h

/-- C33 for entity statements with Redis, provided every statement written was not yet expired at that moment. -/
theorem C33_statement_redis_partial (H : Hashes) (evs : List (CacheEv Item)) (hl : ∀ e ∈ evs, LibraryEv H e)
    (hf : ∀ sub iss st tu ts, (Write.stmt sub iss st tu ts).ev H ∈ evs → tu < st.exp)
    (now : Time) (sub iss : ID) (s : Stmt) (h : stmtCacheGet .redis (Backend.redis.run evs) now sub iss = some s) :
    ∃ st tu ts, (Write.stmt sub iss st tu ts).ev H ∈ evs ∧ s = st.viaCache ∧
      now ≤ max (st.exp + (ts - tu)) (ts + millisecond) := by
  unfold stmtCacheGet at h
  split at h
  · rename_i hg
    cases h
    obtain ⟨t, ttl, h1, h2⟩ := redis_get hg
    obtain ⟨st, tu, h3, h4, h5⟩ := stmt_write hl h1
    cases h4
    refine ⟨st, tu, t, h3, rfl, ?_⟩
    subst h5
    have hexp := hf _ _ _ _ _ h3
    have hpos : 1 ≤ untilT tu st.exp := by
      have key : ∀ a b : Int, a < b → 1 ≤ max minDuration (min maxDuration (b - a)) := by
        unfold maxDuration minDuration; omega
      exact key _ _ hexp
    rcases h2 with h2 | ⟨h2, h6⟩
    · omega
    · have h7 := redisTTL_le (untilT tu st.exp)
      have h8 := until_pos hpos
      have key : ∀ (n e tt u r : Int), r ≤ max u millisecond → u ≤ e - tu → n < tt + r →
          n ≤ max (e + (tt - tu)) (tt + millisecond) := by
        unfold millisecond; intros; omega
      exact key _ _ _ _ _ h7 h8 h6
  · cases h

/-- C33 for `GetEntityConfiguration` and `FetchEntityStatement`: what they return was obtained in this call, or was obtained
earlier for the same pair and is not past its expiry (up to the write delay). -/
theorem C33_answers_memory_partial (H : Hashes) (evs : List (CacheEv Item)) (hl : ∀ e ∈ evs, LibraryEv H e)
    (now : Time) (sub iss : ID) (fetched : Option Stmt) (s : Stmt)
    (h : getStatement .memory (Backend.memory.run evs) now sub iss fetched = some s) :
    fetched = some s ∨ ∃ st tu ts, (Write.stmt sub iss st tu ts).ev H ∈ evs ∧ s = st.viaCache ∧
      (now ≤ st.exp + (ts - tu) ∨ st.exp = tu - 1) := by
  unfold getStatement at h
  split at h
  · rename_i hg
    cases h
    exact .inr (C33_statement_memory_partial H evs hl now sub iss _ hg)
  · exact .inl h

/-- a history with a stored statement, a stored listing and a lost key; the statement is served before its expiry -/
example : ∃ (H : Hashes) (evs : List (CacheEv Item)), (∀ e ∈ evs, LibraryEv H e) ∧ evs.length = 3 ∧
    (∀ sub iss st tu ts, (Write.stmt sub iss st tu ts).ev H ∈ evs → tu < st.exp) ∧
    (stmtCacheGet .memory (Backend.memory.run evs) 60 "l" "i").isSome = true ∧
    (stmtCacheGet .memory (Backend.memory.run evs) 60 "i" "l").isSome = false ∧
    (stmtCacheGet .memory (Backend.memory.run evs) 160 "l" "i").isSome = false := by
  let H : Hashes := ⟨fun _ _ _ => [], fun _ _ => []⟩
  refine ⟨H, [(Write.stmt "l" "i" (Ex.mk "i" "l" none 0) 20 21).ev H, (Write.listing [1] ["x"] 500 30).ev H, .lose []], ?_, rfl, ?_, rfl, rfl, rfl⟩
  · intro e he
    simp only [List.mem_cons, List.not_mem_nil, or_false] at he
    rcases he with rfl | rfl | rfl
    · exact .inl ⟨_, _, _, _, _, rfl⟩
    · exact .inr (.inl ⟨_, .subordinateListing, _, _, _, by decide, rfl⟩)
    · exact .inr (.inr ⟨_, rfl⟩)
  · intro sub iss st tu ts hm
    simp only [List.mem_cons, List.not_mem_nil, or_false, Write.ev, CacheEv.set.injEq, Item.stmt.injEq, reduceCtorEq,
      and_false, false_and] at hm
    obtain ⟨_, _, h1, h2⟩ := hm
    have hexp : st.exp = 100 := congrArg Stmt.exp h1
    rw [hexp] at h2 ⊢
    have h2' : untilT tu 100 = 80 := by rw [h2]; decide
    have key : ∀ tu : Int, max minDuration (min maxDuration (100 - tu)) = 80 → tu < 100 := by
      unfold maxDuration minDuration; intro tu h; omega
    exact key tu h2'

/-! ## C16, the cached metadata -/

/-- C16 is false with Redis: metadata of a chain that has already expired is stored for good. -/
theorem C16_metadata_cached_redis_refuted :
    ¬ ∀ (H : Hashes) (ws : List Write) (now : Time) (o : Nat) (c : Chain) (m : Metadata),
      metadataCacheGet .redis H (Backend.redis.run (ws.map (Write.ev H))) now o c = some m →
      ∃ o' c' m' tu ts, Write.metadata o' c' m' tu ts ∈ ws ∧ H.chain o' c' = H.chain o c ∧ now ≤ chainExp c' + (ts - tu) := by
  intro h
  let H : Hashes := ⟨fun _ _ _ => [], fun _ _ => []⟩
  have hg : metadataCacheGet .redis H (Backend.redis.run ([Write.metadata 0 Ex.chainI Ex.rpMeta 200 200].map (Write.ev H))) 1000 0 Ex.chainI
      = some Ex.rpMeta.viaCache := by
    simp only [metadataCacheGet, Backend.run, List.foldl_cons, List.foldl_nil, Backend.step, List.map, Write.ev, Backend.set]
    rw [if_neg (by decide), if_neg (by decide)]
    simp [Backend.get, Store.put]
  obtain ⟨o', c', m', tu, ts, hm, _, hn⟩ := h H _ _ _ _ _ hg
  simp only [List.mem_singleton, Write.metadata.injEq] at hm
  obtain ⟨rfl, rfl, rfl, rfl, rfl⟩ := hm
  exact absurd hn (by decide)

/-- C16 for the in-memory store: metadata served from the cache for a chain was stored for a chain with the same hash and is served
no later than that chain's expiry plus the write delay (exception as in C33: written exactly 1 ns after the expiry). -/
theorem C16_metadata_cached_partial (H : Hashes) (ws : List Write) (now : Time) (o : Nat) (c : Chain) (m : Metadata)
    (h : metadataCacheGet .memory H (Backend.memory.run (ws.map (Write.ev H))) now o c = some m) :
    ∃ o' c' m' tu ts, Write.metadata o' c' m' tu ts ∈ ws ∧ H.chain o' c' = H.chain o c ∧ m = m'.viaCache ∧
      (now ≤ chainExp c' + (ts - tu) ∨ chainExp c' = tu - 1) := by
  unfold metadataCacheGet at h
  split at h
  · rename_i hg
    cases h
    obtain ⟨t, ttl, h1, h2⟩ := memory_get hg
    obtain ⟨w, hw, he⟩ := List.mem_map.mp (lastWrite_mem h1)
    cases w with
    | stmt sub iss st tu ts =>
      simp only [Write.ev, CacheEv.set.injEq] at he
      cases (key_inj he.2.1).1
    | listing ep ids ttl' ts =>
      simp only [Write.ev, CacheEv.set.injEq] at he
      cases (key_inj he.2.1).1
    | metadata o' c' m' tu ts =>
      simp only [Write.ev, CacheEv.set.injEq, Item.metadata.injEq] at he
      obtain ⟨rfl, he2, rfl, rfl⟩ := he
      refine ⟨o', c', m', tu, _, hw, (key_inj he2).2, rfl, ?_⟩
      rcases h2 with h2 | ⟨h2, h6⟩
      · exact .inr (until_neg_one h2)
      · left
        have key : ∀ (n e tt u : Int), u ≤ e - tu → n ≤ tt + u → n ≤ e + (tt - tu) := by intros; omega
        exact key _ _ _ _ (until_pos h2) h6
  · cases h

example : ∃ (H : Hashes) (ws : List Write), ws.length = 2 ∧
    (metadataCacheGet .memory H (Backend.memory.run (ws.map (Write.ev H))) 60 0 Ex.chainI).isSome = true ∧
    (metadataCacheGet .memory H (Backend.memory.run (ws.map (Write.ev H))) 160 0 Ex.chainI).isSome = false :=
  ⟨⟨fun _ _ _ => [], fun _ _ => []⟩, [.metadata 0 Ex.chainI Ex.rpMeta 20 21, .listing [] [] 5 22], rfl, rfl, rfl⟩

/-! ## C34 -/

/-- C34 for the in-memory store, under every interleaving of any number of resolvers: a call returns exactly what resolving
without any cache of trees and chains returns. In particular it never returns chains verified for another resolver. (The computed
expiry of a tree is never later than year 1, so nothing is ever stored.) -/
theorem C34_memory (H : Hashes) (S : Store Item) (calls : List Call) (h : CacheReach .memory H (fun _ _ => True) S calls)
    (c : Call) (hc : c ∈ calls) (cs : List Chain) (hd : c.phase = .done cs) :
    c.r.chainsNoMeta c.world c.fuel = .ok (some cs) := by
  have := (memory_invariant h).2 c hc
  unfold FreshCall at this
  rw [hd] at this
  exact this

/-- C34 for the in-memory store in its own words: the chains are verified against the resolver's own anchor keys. -/
theorem C34_memory_own_keys (H : Hashes) (S : Store Item) (calls : List Call)
    (h : CacheReach .memory H (fun _ _ => True) S calls) (c : Call) (hc : c ∈ calls) (cs : List Chain)
    (hd : c.phase = .done cs) (ch : Chain) (hch : ch ∈ cs) (hl : 2 ≤ ch.length) :
    VerifiedAgainst c.world.sig c.r.anchors ch := by
  have h1 := C34_memory H S calls h c hc cs hd
  unfold Resolver.chainsNoMeta at h1
  cases ht : c.r.resolveTree c.world c.fuel with
  | error e => rw [ht] at h1; simp [bind, Except.bind] at h1
  | ok o =>
    rw [ht] at h1
    simp only [bind, Except.bind, Except.ok.injEq] at h1
    cases o with
    | none => cases h1
    | some t =>
      cases h1
      obtain ⟨h2, h3, h4⟩ := resolveTree_shape ht
      exact root_signed _ _ _ h2 h3 h4 ch hch hl

/-- With Redis, a call run alone stores its chains for good, and every resolver with the same starting entity, anchor ids and
types is served from then on. -/
theorem redis_shares (H : Hashes) (P) (W : World) (fuel : Nat) (r : Resolver) (t : Tree) (hP : P W r)
    (hs : ¬ (r.start = "" ∨ W.start r.start = none)) (hr : r.resolveTree W fuel = .ok (some t))
    (hne : chains (verifySigs W.sig r.anchors t) ≠ []) :
    ∃ S, CacheReach .redis H P S [⟨W, fuel, r, .done (chains (verifySigs W.sig r.anchors t))⟩] ∧
      ∀ r' : Resolver, r'.chainsKey H = r.chainsKey H → ∀ now, chainsGet .redis H S now r' =
        some ((chains (verifySigs W.sig r.anchors t)).map (·.map Stmt.viaCache)) := by
  have h0 : CacheReach .redis H P _ [⟨W, fuel, r, .init⟩] := CacheReach.spawn .init W fuel r hP
  have h1 := CacheReach.step (pre := []) (post := []) h0 (.miss (now := 0) (by decide) rfl rfl)
  have h2 := CacheReach.step (pre := []) (post := []) h1
    (.resolve (now := 0) (tUntil := 0) (tSet := 0) (by decide) (by decide) (by decide) rfl rfl hs hr)
  have h3 := CacheReach.step (pre := []) (post := []) h2 (.verify (tUntil := 0) (tSet := 0) (by decide) (by decide) rfl)
  have hmiss : ∀ S, S (r.chainsKey H) = none → ∀ now, chainsGet .redis H S now r = none := by
    intro S hS now
    unfold chainsGet Backend.get
    rw [hS]
  have hk : r.chainsKey H ≠ r.treeKey H := fun h => by cases (key_inj h).1
  have h4 := CacheReach.step (pre := []) (post := []) h3
    (.finish (now := 0) (tUntil := 0) (tSet := 0) (by decide) (by decide) (by decide) rfl
      (hmiss _ (by unfold treeSet; rw [set_other _ _ _ _ _ hk, set_other _ _ _ _ _ hk]; rfl) 0) hne)
  refine ⟨_, h4, ?_⟩
  intro r' hk' now
  have hu := until_zero (tu := 0) (Int.le_refl 0)
    (show (verifySigs W.sig r.anchors t).expiresAt ≤ Time.zero by rw [verifySigs_expiry]; exact resolveTree_expiry hr)
  unfold chainsGet Backend.get chainsSet Backend.set
  simp only
  rw [if_neg (by omega), if_neg (by omega), hk', put_same]

/-- a resolver that pins another key for the same anchor -/
def exR' : Resolver := { Ex.R with anchors := [⟨"t", some [9]⟩] }

/-- C34 is false with Redis: the second resolver pins another key for the anchor and still gets the chains verified with the
first one's. -/
theorem C34_redis_refuted :
    ¬ ∀ (H : Hashes) (S : Store Item) (calls : List Call), CacheReach .redis H (fun _ _ => True) S calls →
      ∀ c ∈ calls, ∀ cs, c.phase = .done cs → ∀ ch ∈ cs, 2 ≤ ch.length → VerifiedAgainst c.world.sig c.r.anchors ch := by
  intro h
  let H : Hashes := ⟨fun _ _ _ => [], fun _ _ => []⟩
  have hok : Ex.R.resolveTree Ex.W 5 = .ok (resolve Ex.W Ex.R.anchors 5 [] (rootPending (restrictTypes Ex.R.types Ex.leafEC))) := rfl
  obtain ⟨t, ht⟩ : ∃ t, Ex.R.resolveTree Ex.W 5 = .ok (some t) := ⟨_, rfl⟩
  have hcs : chains (verifySigs Ex.W.sig Ex.R.anchors t) = [Ex.chainI, Ex.chainJ] := by
    have := chainsNoMeta_of ht
    rw [Ex.run] at this
    simpa using this.symm
  obtain ⟨S, h1, h2⟩ := redis_shares H (fun _ _ => True) Ex.W 5 Ex.R t trivial (by rintro (h | h) <;> revert h <;> decide) ht
    (by rw [hcs]; simp)
  have h3 := CacheReach.spawn h1 Ex.W 5 exR' trivial
  have h4 := CacheReach.step (pre := []) h3 (.hit (now := 0) (by decide) rfl (h2 exR' rfl 0))
  rw [hcs] at h4
  obtain ⟨pre, s, top, ta, keys, hc, hfa, hk, hs1, hs2⟩ := h H _ _ h4 _ (List.mem_cons_self) _ rfl (Ex.chainI.map Stmt.viaCache)
    (by simp) (by decide)
  have hts : top = Ex.tEC.viaCache := by
    have := congrArg List.getLast? hc
    simpa [Ex.chainI] using this.symm
  subst hts
  have hta : ta = ⟨"t", some [9]⟩ := by
    have h1 := (find_firstAnchor _ _ _).mpr hfa
    have h2 : exR'.anchors.find? (fun a => a.id == Ex.tEC.viaCache.iss) = some ⟨"t", some [9]⟩ := rfl
    rw [show (Ex.tEC.viaCache.iss) = Ex.tEC.iss from rfl] at h1 h2
    exact Option.some.inj (h1.symm.trans h2)
  subst hta
  rcases hk with ⟨ks, h5, h6⟩ | ⟨h5, _⟩
  · cases h5
    obtain ⟨ks, rr, h7, _, h8, h9⟩ := hs2
    rw [h6] at h7; cases h7
    cases h8
    exact absurd h9 (by decide)
  · cases h5

/-- C34 for any store, when all resolvers sharing a hash use the same anchors and signatures are a fact of the matter: every
chain of two or more statements returned, from the cache or not, is signed with the resolver's own anchor keys. -/
theorem C34_same_anchors_partial (b : Backend) (H : Hashes) (sig : SigOracle) (cfg : Bytes → List Anchor)
    (S : Store Item) (calls : List Call)
    (h : CacheReach b H (fun W r => W.sig = sig ∧ r.anchors = cfg (H.resolver r.start (anchorIDs r.anchors) r.types)) S calls)
    (c : Call) (hc : c ∈ calls) (cs : List Chain) (hd : c.phase = .done cs) (ch : Chain) (hch : ch ∈ cs)
    (hl : 2 ≤ ch.length) : VerifiedAgainst c.world.sig c.r.anchors ch := by
  obtain ⟨h1, _, h3⟩ := (shared_invariant h).2 c hc
  rw [hd] at h3
  rw [h1]
  exact h3 ch hch hl

/-- two calls by resolvers with the same anchors, the second one served from the store -/
example : ∃ S cs, CacheReach .redis ⟨fun _ _ _ => [], fun _ _ => []⟩ (fun W r => W.sig = Ex.sigOf ∧ r.anchors = Ex.R.anchors) S
    [⟨Ex.W, 5, Ex.R, .done cs⟩, ⟨Ex.W, 5, Ex.R, .done [Ex.chainI, Ex.chainJ]⟩] ∧ cs.length = 2 := by
  obtain ⟨t, ht⟩ : ∃ t, Ex.R.resolveTree Ex.W 5 = .ok (some t) := ⟨_, rfl⟩
  have hcs : chains (verifySigs Ex.W.sig Ex.R.anchors t) = [Ex.chainI, Ex.chainJ] := by
    have := chainsNoMeta_of ht
    rw [Ex.run] at this
    simpa using this.symm
  obtain ⟨S, h1, h2⟩ := redis_shares ⟨fun _ _ _ => [], fun _ _ => []⟩ (fun W r => W.sig = Ex.sigOf ∧ r.anchors = Ex.R.anchors)
    Ex.W 5 Ex.R t ⟨rfl, rfl⟩ (by rintro (h | h) <;> revert h <;> decide) ht (by rw [hcs]; simp)
  have h3 := CacheReach.spawn h1 Ex.W 5 Ex.R ⟨rfl, rfl⟩
  have h4 := CacheReach.step (pre := []) h3 (.hit (now := 0) (by decide) rfl (h2 Ex.R rfl 0))
  rw [hcs] at h4
  exact ⟨S, _, h4, rfl⟩

/-! ## C35 -/

/-- one hour and one minute -/
def hour : Int := 3600 * second

/-- C35 is false in both directions with the default settings (one hour, 0.5): a statement with a day's lifetime of which half an
hour is left is not refreshed, and a statement with a two-minute lifetime is refreshed right after it was issued. -/
theorem C35_window_refuted :
    (∃ s now, RefreshDue hour 1 2 now s ∧ shouldRefresh hour 1 2 now s = false) ∧
    (∃ s now, ¬ RefreshDue hour 1 2 now s ∧ shouldRefresh hour 1 2 now s = true) := by
  refine ⟨⟨{ Ex.mk "i" "l" none 0 with iat := 0, exp := 24 * hour }, 24 * hour - 1800 * second, ?_, by decide⟩,
    ⟨{ Ex.mk "i" "l" none 0 with iat := 0, exp := 120 * second }, 1 * second, ?_, by decide⟩⟩
  · unfold RefreshDue; decide
  · unfold RefreshDue; decide

/-- C35, what the code does: for a statement with a positive lifetime, all durations in range, the refresh happens exactly if it
expires within the grace period and *less* than the fraction `1 - n/d` of its lifetime has elapsed. -/
theorem C35_window_partial (grace n : Int) (d : Nat) (now : Time) (s : Stmt) (hlt : s.iat < s.exp)
    (h1 : s.exp - s.iat ≤ maxDuration) (h2 : s.exp - now ≤ maxDuration) (h3 : minDuration ≤ s.exp - now) :
    shouldRefresh grace n d now s = true ↔
      s.exp - now ≤ grace ∧ (now - s.iat) * d < (d - n) * (s.exp - s.iat) := by
  have e1 : untilT now s.exp = s.exp - now := by
    have key : ∀ x : Int, x ≤ maxDuration → minDuration ≤ x → max minDuration (min maxDuration x) = x := by
      unfold maxDuration minDuration; omega
    exact key _ h2 h3
  have hpos : 0 < s.exp - s.iat := by
    have key : ∀ a b : Int, a < b → 0 < b - a := by intros; omega
    exact key _ _ hlt
  have e2 : durSub s.exp s.iat = s.exp - s.iat := by
    have key : ∀ x : Int, x ≤ maxDuration → 0 < x → max minDuration (min maxDuration x) = x := by
      unfold maxDuration minDuration; omega
    exact key _ h1 hpos
  unfold shouldRefresh ratioGt
  simp only [e1, e2]
  rw [if_pos hpos]
  simp only [Bool.and_eq_true, decide_eq_true_eq]
  have key : ∀ (e i w : Int) (dd : Int), n * (e - i) < (e - w) * dd ↔ (w - i) * dd < (dd - n) * (e - i) := by
    intro e i w dd
    have h1 : (e - w) * dd = e * dd - w * dd := Int.sub_mul e w dd
    have h2 : (w - i) * dd = w * dd - i * dd := Int.sub_mul w i dd
    have h3 : (dd - n) * (e - i) = dd * (e - i) - n * (e - i) := Int.sub_mul dd n (e - i)
    have h4 : dd * (e - i) = dd * e - dd * i := Int.mul_sub dd e i
    have h5 : dd * e = e * dd := Int.mul_comm dd e
    have h6 : dd * i = i * dd := Int.mul_comm dd i
    omega
  exact and_congr Iff.rfl (key _ _ _ _)

/-- C35, the half that holds: nothing is refreshed before the grace period begins. -/
theorem C35_not_before_grace_partial (grace n : Int) (d : Nat) (now : Time) (s : Stmt)
    (h : shouldRefresh grace n d now s = true) (hg : grace < maxDuration) : s.exp - now ≤ grace := by
  unfold shouldRefresh at h
  simp only [Bool.and_eq_true, decide_eq_true_eq] at h
  have key : ∀ x : Int, max minDuration (min maxDuration x) ≤ grace → x ≤ grace := by
    unfold maxDuration minDuration at *; intro x hx; omega
  exact key _ h.1

example : shouldRefresh hour 1 2 (1 * second) { Ex.mk "i" "l" none 0 with iat := 0, exp := 120 * second } = true ∧
    (0 : Int) < 120 * second ∧ 120 * second ≤ maxDuration ∧ hour < maxDuration := by decide

/-! ## C36 -/

/-- C36: the time check accepts exactly if iat, when given and non-zero, is not in the future and exp, when given and non-zero, is
not in the past. -/
theorem C36_verify_time (now : Time) (iat exp : Option Time) :
    verifyTime now iat exp = true ↔
      (∀ t, iat = some t → t ≠ Time.zero → t ≤ now) ∧ (∀ t, exp = some t → t ≠ Time.zero → now ≤ t) := by
  have key : ∀ (t b : Time), (!t.isZero && decide (b < t)) = false ↔ (t ≠ Time.zero → t ≤ b) := by
    intro t b
    unfold Time.isZero
    by_cases h : t = Time.zero <;> simp [h, ← Int.not_lt]
  have key' : ∀ (t b : Time), (!t.isZero && decide (t < b)) = false ↔ (t ≠ Time.zero → b ≤ t) := by
    intro t b
    unfold Time.isZero
    by_cases h : t = Time.zero <;> simp [h, ← Int.not_lt]
  unfold verifyTime
  have fin : ∀ a b : Bool, (if a then false else if b then false else true) = true ↔ a = false ∧ b = false := by decide
  refine (fin _ _).trans (and_congr ?_ ?_)
  · cases iat with
    | none => simp
    | some t => exact (key t now).trans ⟨fun h t' e => by cases e; exact h, fun h => h t rfl⟩
  · cases exp with
    | none => simp
    | some t => exact (key' t now).trans ⟨fun h t' e => by cases e; exact h, fun h => h t rfl⟩

example : verifyTime 50 (some 0) (some 100) = true ∧ verifyTime 150 (some 0) (some 100) = false ∧
    verifyTime 50 (some 60) none = false ∧ verifyTime 50 none (some Time.zero) = true := by decide

/-! ## C128 -/

/-- C128 for the in-memory store, under every interleaving of any number of resolvers: every statement of a returned chain but the leaf's configuration was
within its validity at a time the call itself has read from the clock. -/
theorem C128_memory_partial (H : Hashes) (S : Store Item) (calls : List Call) (h : CacheReach .memory H (fun _ _ => True) S calls)
    (c : Call) (hc : c ∈ calls) (cs : List Chain) (hd : c.phase = .done cs) (ch : Chain) (hch : ch ∈ cs) (k : Nat) (s : Stmt) (hs : ch[k+1]? = some s) :
    ∃ now, Reading c.world now ∧ InWindow now s :=
  C05_time_valid_partial c.world c.r ch ⟨c.fuel, cs, .inl (C34_memory H S calls h c hc cs hd), hch⟩ k s hs

/-- the world of the example federation long after everything has expired -/
def exLate : World := { Ex.W with nowEC := fun _ => 1000, nowSub := fun _ => 1000 }

/-- C128 is false with Redis: chains are stored without expiry, and are returned by calls at any later time. -/
theorem C128_redis_refuted :
    ¬ ∀ (H : Hashes) (S : Store Item) (calls : List Call), CacheReach .redis H (fun _ _ => True) S calls →
      ∀ c ∈ calls, ∀ cs, c.phase = .done cs → ∀ ch ∈ cs, ∀ k s, ch[k+1]? = some s → ∃ now, Reading c.world now ∧ InWindow now s := by
  intro h
  let H : Hashes := ⟨fun _ _ _ => [], fun _ _ => []⟩
  obtain ⟨t, ht⟩ : ∃ t, Ex.R.resolveTree Ex.W 5 = .ok (some t) := ⟨_, rfl⟩
  have hcs : chains (verifySigs Ex.W.sig Ex.R.anchors t) = [Ex.chainI, Ex.chainJ] := by
    have := chainsNoMeta_of ht
    rw [Ex.run] at this
    simpa using this.symm
  obtain ⟨S, h1, h2⟩ := redis_shares H (fun _ _ => True) Ex.W 5 Ex.R t trivial (by rintro (h | h) <;> revert h <;> decide) ht
    (by rw [hcs]; simp)
  have h3 := CacheReach.spawn h1 exLate 5 Ex.R trivial
  have h4 := CacheReach.step (pre := []) h3 (.hit (now := 1000) (by decide) rfl (h2 Ex.R rfl 1000))
  rw [hcs] at h4
  obtain ⟨now, ⟨p, hp⟩, hw⟩ := h H _ _ h4 _ (List.mem_cons_self) _ rfl (Ex.chainI.map Stmt.viaCache) (by simp) 0 (Ex.mk "i" "l" (some [1]) 2).viaCache (by rfl)
  have hn : now = 1000 := by rcases hp with h | h <;> exact h
  subst hn
  exact absurd hw (by unfold InWindow; decide)

/-- The example's federation, resolved alone with the in-memory store. -/
example : ∃ S, CacheReach .memory ⟨fun _ _ _ => [], fun _ _ => []⟩ (fun _ _ => True) S [⟨Ex.W, 5, Ex.R, .done [Ex.chainI, Ex.chainJ]⟩] := by
  let H : Hashes := ⟨fun _ _ _ => [], fun _ _ => []⟩
  obtain ⟨t, ht⟩ : ∃ t, Ex.R.resolveTree Ex.W 5 = .ok (some t) := ⟨_, rfl⟩
  have hcs : chains (verifySigs Ex.W.sig Ex.R.anchors t) = [Ex.chainI, Ex.chainJ] := by
    have := chainsNoMeta_of ht
    rw [Ex.run] at this
    simpa using this.symm
  have h0 : CacheReach .memory H (fun _ _ => True) _ [⟨Ex.W, 5, Ex.R, .init⟩] := CacheReach.spawn .init Ex.W 5 Ex.R trivial
  have h1 := CacheReach.step (pre := []) (post := []) h0 (.miss (now := 0) (by decide) rfl rfl)
  have h2 := CacheReach.step (pre := []) (post := []) h1
    (.resolve (now := 0) (tUntil := 0) (tSet := 0) (by decide) (by decide) (by decide) rfl rfl
      (by rintro (h | h) <;> revert h <;> decide) ht)
  have h3 := CacheReach.step (pre := []) (post := []) h2 (.verify (tUntil := 0) (tSet := 0) (by decide) (by decide) rfl)
  have h4 := CacheReach.step (pre := []) (post := []) h3
    (.finish (now := 0) (tUntil := 0) (tSet := 0) (by decide) (by decide) (by decide) rfl
      (chainsGet_none (memory_invariant h3).1) (by rw [hcs]; simp))
  rw [← hcs]
  exact ⟨_, h4⟩

end Oidfed
