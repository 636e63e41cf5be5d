import Verif.Lemmas.Sessions
import Verif.Props.Cache
import Verif.Props.Reuse
/-!
# C143: resolvers that share the cache
-/

namespace Oidfed

open Spec

/-- **C143** (part), the in-memory cache: whatever resolvers there are, whichever of their methods are called, in whatever interleaving, a method that has returned did
what it does for the only caller there is. -/
theorem C143_alone_partial (H : Hashes) (S : Store Item) (ss : List Session) (h : SessionReach .memory H S ss) (s : Session) (hs : s ∈ ss)
    (hd : s.todo = []) (hp : s.panicked = false) : AsIfAlone s :=
  consistent_done ((sessions_invariant h).2 s hs) hd hp

/-- **C143** (part): and it panics only if it does so for the only caller there is. -/
theorem C143_panic_partial (H : Hashes) (S : Store Item) (ss : List Session) (h : SessionReach .memory H S ss) (s : Session) (hs : s ∈ ss)
    (hp : s.panicked = true) : (s.method = some .resolve ∨ s.method = some .call) ∧ ∃ e, s.before.resolve s.world s.fuel = .error e :=
  consistent_panic ((sessions_invariant h).2 s hs) hp

/-- **C143** (part), the in-memory cache: every chain of two or more statements that a call returns is verified with the anchors of the resolver it was called on,
whatever other methods of this and other resolvers have been called before or at the same time. Missing: Redis, and objects that were used before for which the
starting configuration is not obtained any more (C118). -/
theorem C143_verified_partial (H : Hashes) (S : Store Item) (ss : List Session) (h : SessionReach .memory H S ss) (s : Session) (hs : s ∈ ss)
    (hm : s.method = some .call) (cs : List Chain) (hr : s.ret = some cs) (hd : s.todo = []) (hp : s.panicked = false)
    (hb : Obtains s.world s.before.r ∨ ∃ r, s.before = .fresh r) (ch : Chain) (hch : ch ∈ cs) (hl : 2 ≤ ch.length) :
    FullyVerified s.world.sig s.before.r.anchors ch := by
  have h1 := C143_alone_partial H S ss h s hs hd hp
  unfold AsIfAlone at h1
  rw [hm] at h1
  obtain ⟨cs', h2, h3⟩ := h1
  rw [hr] at h3
  cases h3
  have h4 : s.before.r.chainsNoMeta s.world s.fuel = .ok (some cs) := by
    rcases hb with hb | ⟨r, hb⟩
    · have := C118_obtained_partial [] s.before s.world s.fuel hb
      rw [List.foldl_nil, h2] at this
      exact this.symm
    · have := call_fresh s.world s.fuel r
      rw [hb] at h2
      rw [h2] at this
      rw [hb]
      exact this.symm
  exact C03_signed_by_superior_keys s.world s.before.r ch ⟨s.fuel, cs, .inl h4, hch⟩ hl

/-- Redis keeps chains for good. -/
theorem redis_keeps (H : Hashes) (S : Store Item) (r : Resolver) (t : Tree) (cs : List Chain) (he : t.expiresAt ≤ Time.zero) (now : Time) :
    chainsGet .redis H (chainsSet .redis H S 0 0 r t cs) now r = some (cs.map (·.map Stmt.viaCache)) := by
  have hu := until_zero (tu := 0) (Int.le_refl 0) he
  unfold chainsGet Backend.get chainsSet Backend.set
  simp only
  rw [if_neg (by omega), if_neg (by omega), put_same]

namespace ExSe

/-- The federation of the example, in which no signature is right. -/
def W : World := { Ex.W with sig := fun _ _ => false }

def H : Hashes := ⟨fun _ _ _ => [], fun _ _ => []⟩

theorem resolved : ∃ t, Ex.R.resolveTree W 5 = .ok (some t) ∧ (ResolverObj.fresh Ex.R).resolve W 5 = .ok (some ⟨Ex.R, t⟩) ∧ chains t ≠ [] ∧
    ∀ ch ∈ chains t, 2 ≤ ch.length := ⟨_, rfl, rfl, by decide +kernel, by decide +kernel⟩

/-- Somebody calls `Resolve` and `Chains`, and with Redis the unverified chains stay. -/
theorem shared : ∃ (S : Store Item) (s : Session) (cs : List Chain), SessionReach .redis H S [s] ∧ cs ≠ [] ∧ (∀ ch ∈ cs, 2 ≤ ch.length) ∧
    ∀ now, chainsGet .redis H S now Ex.R = some cs := by
  obtain ⟨t, ht, hr, hne, hl⟩ := resolved
  have h0 : SessionReach .redis H _ [Session.new Ex.R W] := .spawn .init Ex.R W
  have h1 := SessionReach.step (pre := []) (post := []) h0 (.start .resolve W 5 rfl)
  have h2 := SessionReach.step (pre := []) (post := []) h1 (.treeMiss (now := 0) (by decide) rfl rfl)
  have h3 := SessionReach.step (pre := []) (post := []) h2 (.build rfl (by rintro (h | h) <;> revert h <;> decide) hr)
  have h4 := SessionReach.step (pre := []) (post := []) h3 (.storeTree (tUntil := 0) (tSet := 0) (by decide) (by decide) rfl)
  have h5 := SessionReach.step (pre := []) (post := []) h4 (.start .chains W 5 rfl)
  have hk : Ex.R.chainsKey H ≠ Ex.R.treeKey H := fun h => by cases (key_inj h).1
  have hmiss : chainsGet .redis H (treeSet .redis H Store.empty 0 0 Ex.R t) 0 Ex.R = none := by
    unfold chainsGet Backend.get treeSet
    rw [set_other _ _ _ _ _ hk]
    rfl
  have h6 := SessionReach.step (pre := []) (post := []) h5 (.miss (now := 0) (by decide) rfl hmiss)
  have h7 := SessionReach.step (pre := []) (post := []) h6 (.collect rfl hne)
  have h8 := SessionReach.step (pre := []) (post := []) h7 (.storeChains (tUntil := 0) (tSet := 0) (by decide) (by decide) rfl)
  refine ⟨_, _, (chains t).map (·.map Stmt.viaCache), h8, ?_, ?_, ?_⟩
  · simpa using hne
  · intro ch hch
    obtain ⟨c, hc, rfl⟩ := List.mem_map.mp hch
    simpa using hl c hc
  · intro now
    exact redis_keeps H _ Ex.R t (chains t) (resolveTree_expiry ht) now

/-- With the in-memory cache: one resolver does `Resolve` and `Chains` in the world without right signatures, the other one a call in the world with right ones. -/
theorem memory : ∃ (S : Store Item) (s s' : Session), SessionReach .memory H S [s, s'] ∧
    (s.method = some .call ∧ s.ret = some [Ex.chainI, Ex.chainJ] ∧ s.todo = [] ∧ s.panicked = false ∧ s.before = .fresh Ex.R) ∧
    (s'.method = some .chains ∧ (∃ cs, s'.ret = some cs ∧ cs ≠ []) ∧ s'.todo = [] ∧ s'.panicked = false) := by
  obtain ⟨t, ht, hr, hne, hl⟩ := resolved
  obtain ⟨t2, ht2⟩ : ∃ t, (ResolverObj.fresh Ex.R).resolve Ex.W 5 = .ok (some ⟨Ex.R, t⟩) := ⟨_, rfl⟩
  have hcs : chains (verifySigs Ex.W.sig Ex.R.anchors t2) = [Ex.chainI, Ex.chainJ] := by
    have h1 := call_fresh Ex.W 5 Ex.R
    rw [Ex.run] at h1
    unfold ResolverObj.call at h1
    rw [ht2] at h1
    simp only [bind, Except.bind, Except.map, Option.map_some, Except.ok.injEq, Option.some.injEq] at h1
    exact h1
  have nc : ∀ {S ss now r}, SessionReach .memory H S ss → chainsGet .memory H S now r = none := fun h => chainsGet_none (sessions_invariant h).1
  have nt : ∀ {S ss now r}, SessionReach .memory H S ss → treeGet .memory H S now r = none := fun h => treeGet_none (sessions_invariant h).1
  have h0 : SessionReach .memory H _ [Session.new Ex.R Ex.W, Session.new Ex.R W] := .spawn (.spawn .init Ex.R W) Ex.R Ex.W
  have h1 := SessionReach.step (pre := [Session.new Ex.R Ex.W]) (post := []) h0 (.start .resolve W 5 rfl)
  have h2 := SessionReach.step (pre := []) h1 (.start .call Ex.W 5 rfl)
  have h3 := SessionReach.step (pre := []) h2 (.miss (now := 0) (by decide) rfl (nc h2))
  have h4 := SessionReach.step (pre := [_]) (post := []) h3 (.treeMiss (now := 0) (by decide) rfl (nt h3))
  have h5 := SessionReach.step (pre := [_]) (post := []) h4 (.build rfl (by rintro (h | h) <;> revert h <;> decide) hr)
  have h6 := SessionReach.step (pre := [_]) (post := []) h5 (.storeTree (tUntil := 0) (tSet := 0) (by decide) (by decide) rfl)
  have h7 := SessionReach.step (pre := [_]) (post := []) h6 (.start .chains W 5 rfl)
  have h8 := SessionReach.step (pre := [_]) (post := []) h7 (.miss (now := 0) (by decide) rfl (nc h7))
  have h9 := SessionReach.step (pre := [_]) (post := []) h8 (.collect rfl hne)
  have h10 := SessionReach.step (pre := [_]) (post := []) h9 (.storeChains (tUntil := 0) (tSet := 0) (by decide) (by decide) rfl)
  have h11 := SessionReach.step (pre := []) h10 (.treeMiss (now := 0) (by decide) rfl (nt h10))
  have h12 := SessionReach.step (pre := []) h11 (.build rfl (by rintro (h | h) <;> revert h <;> decide) ht2)
  have h13 := SessionReach.step (pre := []) h12 (.storeTree (tUntil := 0) (tSet := 0) (by decide) (by decide) rfl)
  have h14 := SessionReach.step (pre := []) h13 (.verify rfl)
  have h15 := SessionReach.step (pre := []) h14 (.storeTree (tUntil := 0) (tSet := 0) (by decide) (by decide) rfl)
  have h16 := SessionReach.step (pre := []) h15 (.miss (now := 0) (by decide) rfl (nc h15))
  have h17 := SessionReach.step (pre := []) h16 (.collect rfl (show chains (verifySigs Ex.W.sig Ex.R.anchors t2) ≠ [] by rw [hcs]; simp))
  have h18 := SessionReach.step (pre := []) h17 (.storeChains (tUntil := 0) (tSet := 0) (by decide) (by decide) rfl)
  exact ⟨_, _, _, h18, ⟨rfl, congrArg some hcs, rfl, rfl, rfl⟩, rfl, ⟨_, rfl, hne⟩, rfl, rfl⟩

/-- A leaf without metadata makes a call panic. -/
theorem panics : ∃ (S : Store Item) (s : Session), SessionReach .memory H S [s] ∧ s.method = some .call ∧ s.panicked = true := by
  have h0 : SessionReach .memory H _ [Session.new Ex.R W] := .spawn .init Ex.R W
  have h1 := SessionReach.step (pre := []) (post := []) h0
    (.start .call { Ex.W with start := fun _ => some { Ex.leafEC with metadata := none } } 5 rfl)
  have h2 := SessionReach.step (pre := []) (post := []) h1 (.miss (now := 0) (by decide) rfl rfl)
  have h3 := SessionReach.step (pre := []) (post := []) h2 (.treeMiss (now := 0) (by decide) rfl rfl)
  have h4 := SessionReach.step (pre := []) (post := []) h3 (.panic (e := .panic) rfl rfl)
  exact ⟨_, _, h4, rfl, rfl⟩

end ExSe

/-- **C143** is false with Redis: after somebody has called `Resolve` and `Chains`, without verifying, a new resolver with the same starting entity, anchors and types
returns their chains from `ResolveToValidChains…`, although no signature in them is right. -/
theorem C143_redis_refuted :
    ¬ ∀ (H : Hashes) (S : Store Item) (ss : List Session), SessionReach .redis H S ss → ∀ s ∈ ss, s.method = some .call → (∃ r, s.before = .fresh r) →
      s.todo = [] → s.panicked = false → ∀ cs, s.ret = some cs → ∀ ch ∈ cs, 2 ≤ ch.length → FullyVerified s.world.sig s.before.r.anchors ch := by
  intro h
  obtain ⟨S, s, cs, h1, hne, hl, hg⟩ := ExSe.shared
  have h2 := SessionReach.spawn h1 Ex.R ExSe.W
  have h3 := SessionReach.step (pre := []) h2 (.start .call ExSe.W 5 rfl)
  have h4 := SessionReach.step (pre := []) h3 (.hit (now := 0) (by decide) rfl (hg 0))
  cases cs with
  | nil => exact hne rfl
  | cons ch cs =>
    obtain ⟨_, pre, x, top, ta, keys, _, _, _, h5, _⟩ := h ExSe.H _ _ h4 _ List.mem_cons_self rfl ⟨_, rfl⟩ rfl rfl _ rfl ch List.mem_cons_self
      (hl ch List.mem_cons_self)
    obtain ⟨ks, rr, _, _, _, h6⟩ := h5
    have h7 : false = true := h6
    cases h7

end Oidfed
