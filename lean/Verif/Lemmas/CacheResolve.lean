import Verif.Lemmas.Cache
/-!
# Lemmas about resolving with a shared cache
-/

namespace Oidfed
open Spec

/-! ## Expiry of trees -/

theorem resolveHints_expiry {W rec t p} : ∀ {hs : List ID} {i : Nat} {e : Time} {ts : List Tree} {e' : Time},
    resolveHints W rec t p i hs e = some (ts, e') → e' ≤ e := by
  intro hs
  induction hs with
  | nil => intro i e ts e' h; simp only [resolveHints, Option.some.injEq, Prod.mk.injEq] at h; exact Int.le_of_eq h.2.symm
  | cons a hs ih =>
    intro i e ts e' h
    unfold resolveHints at h
    split at h
    · simp only [Option.bind_eq_bind, Option.bind_eq_some_iff] at h
      obtain ⟨⟨ts', e''⟩, h1, h2⟩ := h
      simp only [Option.some.injEq, Prod.mk.injEq] at h2
      rw [← h2.2]; exact ih h1
    · simp only [Option.bind_eq_bind, Option.bind_eq_some_iff] at h
      obtain ⟨tt, _, ⟨ts', e''⟩, h1, h2⟩ := h
      simp only [Option.some.injEq, Prod.mk.injEq] at h2
      rw [← h2.2]
      have := ih h1
      split at this
      · rename_i hlt; exact Int.le_trans this (Int.le_of_lt hlt)
      · exact this

theorem resolve_expiry {W A fuel p t T} (h : resolve W A fuel p t = some T) : T.expiresAt ≤ Time.zero := by
  have h0 : (if t.entity.exp < Time.zero then t.entity.exp else Time.zero) ≤ Time.zero := by
    split
    · rename_i h; exact Int.le_of_lt h
    · exact Int.le_refl _
  cases fuel with
  | zero => simp [resolve] at h
  | succ f =>
    unfold resolve at h
    simp only at h
    split at h
    · cases h; exact h0
    · simp only [Option.bind_eq_bind, Option.bind_eq_some_iff] at h
      obtain ⟨⟨ts, e⟩, h1, h⟩ := h
      cases h
      exact Int.le_trans (resolveHints_expiry h1) h0

theorem verifySigs_expiry (sig A) (T : Tree) : (verifySigs sig A T).expiresAt = T.expiresAt := by
  cases T with
  | node e s n as v x d ty ids =>
    unfold verifySigs
    split
    · rfl
    · split
      · split <;> rfl
      · rfl

theorem viaCache_expiry (T : Tree) : T.viaCache.expiresAt = Time.zero := by
  cases T; rfl

theorem resolveTree_expiry {W fuel} {r : Resolver} {t} (h : r.resolveTree W fuel = .ok (some t)) : t.expiresAt ≤ Time.zero := by
  unfold Resolver.resolveTree at h
  repeat' split at h
  · cases h; exact Int.le_refl _
  · cases h; exact Int.le_refl _
  · cases h
  · exact resolve_expiry (Except.ok.inj h)

theorem noStart_tree {W fuel} {r : Resolver} (h : r.start = "" ∨ W.start r.start = none) :
    r.resolveTree W fuel = .ok (some Tree.zero) := by
  unfold Resolver.resolveTree
  split
  · rfl
  · rename_i hs
    rcases h with h | h
    · simp [h] at hs
    · rw [h]

theorem chainsNoMeta_of {W fuel} {r : Resolver} {t} (h : r.resolveTree W fuel = .ok (some t)) :
    r.chainsNoMeta W fuel = .ok (some (chains (verifySigs W.sig r.anchors t))) := by
  unfold Resolver.chainsNoMeta
  rw [h]; rfl

/-! ## The in-memory store -/

/-- Nothing is stored in the two sub caches of the resolver. -/
def NoTrees (S : Store Item) : Prop := ∀ k, S (cacheKey (bytes Subsystem.trustTree.name) k) = none ∧
  S (cacheKey (bytes Subsystem.trustTreeChains.name) k) = none

/-- A call that has only seen misses. -/
def FreshCall (c : Call) : Prop :=
  match c.phase with
  | .init => True
  | .miss => True
  | .resolved t => c.r.resolveTree c.world c.fuel = .ok (some t)
  | .verified t => ∃ t0, c.r.resolveTree c.world c.fuel = .ok (some t0) ∧ t = verifySigs c.world.sig c.r.anchors t0
  | .done cs => c.r.chainsNoMeta c.world c.fuel = .ok (some cs)

theorem memory_set_expired {S : Store Item} {now k v tu e} (hu : 0 ≤ tu) (he : e ≤ Time.zero) :
    Backend.memory.set S now k v (untilT tu e) = S.put k none := by
  have := until_zero hu he
  unfold Backend.set
  simp only
  rw [if_neg (by omega), if_pos (by omega)]

theorem noTrees_put {S k} (h : NoTrees S) : NoTrees (S.put k none) := by
  intro k'
  constructor
  · by_cases hk : cacheKey (bytes Subsystem.trustTree.name) k' = k
    · rw [← hk, put_same]
    · rw [put_other _ _ hk]; exact (h k').1
  · by_cases hk : cacheKey (bytes Subsystem.trustTreeChains.name) k' = k
    · rw [← hk, put_same]
    · rw [put_other _ _ hk]; exact (h k').2

theorem write_other {b : Backend} {H S} (w : Write) (k : Bytes) (s : Subsystem)
    (hs : s = .trustTree ∨ s = .trustTreeChains) :
    b.step S (w.ev H) (cacheKey (bytes s.name) k) = S (cacheKey (bytes s.name) k) := by
  cases w <;> simp only [Write.ev, Backend.step, entityStmtKey, metadataKey] <;>
    (rw [set_other]; intro h; have := (key_inj h).1; rcases hs with rfl | rfl <;> cases this)

theorem chainsGet_none {b : Backend} {H S now r} (h : NoTrees S) : chainsGet b H S now r = none := by
  unfold chainsGet Backend.get Resolver.chainsKey
  rw [(h _).2]

theorem treeGet_none {b : Backend} {H S now r} (h : NoTrees S) : treeGet b H S now r = none := by
  unfold treeGet Backend.get Resolver.treeKey
  rw [(h _).1]

theorem memory_invariant {H P S calls} (h : CacheReach .memory H P S calls) : NoTrees S ∧ ∀ c ∈ calls, FreshCall c := by
  induction h with
  | init => exact ⟨fun _ => ⟨rfl, rfl⟩, by simp⟩
  | spawn h W fuel r hP ih =>
    refine ⟨ih.1, ?_⟩
    intro c hc
    rcases List.mem_cons.mp hc with rfl | hc
    · trivial
    · exact ih.2 c hc
  | write h w ih =>
    refine ⟨fun k => ⟨?_, ?_⟩, ih.2⟩
    · rw [write_other w k .trustTree (.inl rfl)]; exact (ih.1 k).1
    · rw [write_other w k .trustTreeChains (.inr rfl)]; exact (ih.1 k).2
  | lose h k ih => exact ⟨noTrees_put ih.1, ih.2⟩
  | @step S S' pre post c c' h hs ih =>
    obtain ⟨hS, hcalls⟩ := ih
    have hc : FreshCall c := hcalls c (by simp)
    have hstep : NoTrees S' ∧ FreshCall c' := by
      cases hs with
      | hit hn hp hg => rw [chainsGet_none hS] at hg; cases hg
      | miss hn hp hg => exact ⟨hS, trivial⟩
      | treeHit hn hp hg => rw [treeGet_none hS] at hg; cases hg
      | noStart hn hp hg hs => exact ⟨hS, noStart_tree hs⟩
      | resolve hn hu ht hp hg hs hr =>
        refine ⟨?_, hr⟩
        unfold treeSet
        rw [memory_set_expired hu (resolveTree_expiry hr)]
        exact noTrees_put hS
      | verify hu ht hp =>
        simp only [FreshCall, hp] at hc
        refine ⟨?_, _, hc, rfl⟩
        unfold treeSet
        rw [memory_set_expired hu (by rw [verifySigs_expiry]; exact resolveTree_expiry hc)]
        exact noTrees_put hS
      | hit2 hn hp hg => rw [chainsGet_none hS] at hg; cases hg
      | empty hn hp hg hcc =>
        simp only [FreshCall, hp] at hc
        obtain ⟨t0, h1, rfl⟩ := hc
        refine ⟨hS, ?_⟩
        show _ = _
        rw [← hcc]; exact chainsNoMeta_of h1
      | finish hn hu ht hp hg hcc =>
        simp only [FreshCall, hp] at hc
        obtain ⟨t0, h1, rfl⟩ := hc
        refine ⟨?_, chainsNoMeta_of h1⟩
        unfold chainsSet
        rw [memory_set_expired hu (by rw [verifySigs_expiry]; exact resolveTree_expiry h1)]
        exact noTrees_put hS
    refine ⟨hstep.1, ?_⟩
    intro x hx
    simp only [List.mem_append, List.mem_cons] at hx
    rcases hx with hx | rfl | hx
    · exact hcalls x (by simp [hx])
    · exact hstep.2
    · exact hcalls x (by simp [hx])

/-! ## Any store: shape of trees -/

mutual
/-- Shape of the trees built by `resolve` for anchors with the given ids, also after pruning and a cache round trip. -/
def Tree.Shape (ids : List ID) : Tree → Prop
  | .node e s n as _ _ _ _ _ =>
    (e = none → s = none ∧ as = []) ∧ (∀ x, e = some x → x.iss ∈ ids → n = true) ∧ (n = true → as = []) ∧
      Tree.ShapeList ids as
/-- The same for a list of trees. -/
def Tree.ShapeList (ids : List ID) : List Tree → Prop
  | [] => True
  | t :: ts => t.Shape ids ∧ Tree.ShapeList ids ts
end

mutual
/-- No node is marked as verified. -/
def Tree.Unverified : Tree → Prop
  | .node _ _ _ as v _ _ _ _ => v = false ∧ Tree.UnverifiedList as
/-- The same for a list of trees. -/
def Tree.UnverifiedList : List Tree → Prop
  | [] => True
  | t :: ts => t.Unverified ∧ Tree.UnverifiedList ts
end

theorem shapeList_mem {ids} : ∀ {ts : List Tree}, Tree.ShapeList ids ts → ∀ t ∈ ts, t.Shape ids := by
  intro ts
  induction ts with
  | nil => intro _ t ht; simp at ht
  | cons a ts ih =>
    rintro ⟨h1, h2⟩ t ht
    rcases List.mem_cons.mp ht with rfl | ht
    · exact h1
    · exact ih h2 t ht

theorem unvList_mem : ∀ {ts : List Tree}, Tree.UnverifiedList ts → ∀ t ∈ ts, t.Unverified := by
  intro ts
  induction ts with
  | nil => intro _ t ht; simp at ht
  | cons a ts ih =>
    rintro ⟨h1, h2⟩ t ht
    rcases List.mem_cons.mp ht with rfl | ht
    · exact h1
    · exact ih h2 t ht

theorem shape_zero (ids) : Tree.zero.Shape ids ∧ Tree.zero.Unverified := by
  simp [Tree.zero, Tree.Shape, Tree.ShapeList, Tree.Unverified, Tree.UnverifiedList]

mutual
theorem viaCache_shape (ids) : ∀ (t : Tree), t.Shape ids → t.viaCache.Shape ids ∧ t.viaCache.Unverified
  | .node e s n as v x d ty i, h => by
    unfold Tree.Shape at h
    obtain ⟨h1, h2, h3, h4⟩ := h
    obtain ⟨h5, h6⟩ := viaCacheList_shape ids as h4
    unfold Tree.viaCache Tree.Shape Tree.Unverified
    refine ⟨⟨?_, ?_, ?_, h5⟩, rfl, h6⟩
    · intro he
      have : e = none := by simpa using he
      obtain ⟨rfl, rfl⟩ := h1 this
      exact ⟨rfl, rfl⟩
    · intro y hy hi
      obtain ⟨z, hz, rfl⟩ := Option.map_eq_some_iff.mp hy
      exact h2 z hz hi
    · intro hn
      rw [h3 hn]; rfl
theorem viaCacheList_shape (ids) : ∀ (ts : List Tree), Tree.ShapeList ids ts →
    Tree.ShapeList ids (Tree.viaCacheList ts) ∧ Tree.UnverifiedList (Tree.viaCacheList ts)
  | [], _ => by simp [Tree.viaCacheList, Tree.ShapeList, Tree.UnverifiedList]
  | t :: ts, h => by
    obtain ⟨h1, h2⟩ := h
    obtain ⟨h3, h4⟩ := viaCache_shape ids t h1
    obtain ⟨h5, h6⟩ := viaCacheList_shape ids ts h2
    exact ⟨⟨h3, h5⟩, h4, h6⟩
end

mutual
theorem verifySigs_shape (sig A ids) : ∀ (t : Tree), t.Shape ids → (verifySigs sig A t).Shape ids
  | .node e s n as v x d ty i, h => by
    have h0 := h
    unfold Tree.Shape at h
    obtain ⟨h1, h2, h3, h4⟩ := h
    have h5 := fun e s => verifyAuths_shape sig A ids e s as h4
    unfold verifySigs
    split
    · exact h0
    · split
      · split
        · unfold Tree.Shape
          exact ⟨h1, h2, h3, h4⟩
        · dsimp only
          unfold Tree.Shape
          exact ⟨by simp, h2, fun hn => by rw [h3 hn]; rfl, h5 _ _⟩
      · dsimp only
        unfold Tree.Shape
        refine ⟨?_, h2, fun hn => by rw [h3 hn]; rfl, h5 _ _⟩
        intro he
        obtain ⟨h6, h7⟩ := h1 he
        exact ⟨h6, by rw [h7]; rfl⟩
theorem verifyAuths_shape (sig A ids) : ∀ (e s : Option Stmt) (ts : List Tree), Tree.ShapeList ids ts →
    Tree.ShapeList ids (verifyAuths sig A e s ts)
  | _, _, [], _ => by simp [verifyAuths, Tree.ShapeList]
  | e, s, t :: ts, h => by
    obtain ⟨h1, h2⟩ := h
    have h3 := verifySigs_shape sig A ids t h1
    have h4 := verifyAuths_shape sig A ids e s ts h2
    rw [verifyAuths]
    split
    · rename_i heq
      rw [heq] at h3
      split
      · exact ⟨h3, h4⟩
      · exact h4
    · exact h4
end

theorem resolveHints_shape {W A fuel t p ids}
    (ih : ∀ p t T, resolve W A fuel p t = some T → T.Shape ids ∧ T.Unverified) :
    ∀ {hs : List ID} {i : Nat} {e : Time} {ts : List Tree} {e' : Time},
    resolveHints W (resolve W A fuel) t p i hs e = some (ts, e') →
      Tree.ShapeList ids ts ∧ Tree.UnverifiedList ts ∧ ts.length = hs.length := by
  intro hs
  induction hs with
  | nil =>
    intro i e ts e' h
    simp only [resolveHints, Option.some.injEq, Prod.mk.injEq] at h
    rw [← h.1]; exact ⟨trivial, trivial, rfl⟩
  | cons a hs ihs =>
    intro i e ts e' h
    unfold resolveHints at h
    split at h
    · simp only [Option.bind_eq_bind, Option.bind_eq_some_iff] at h
      obtain ⟨⟨ts', e''⟩, h1, h2⟩ := h
      simp only [Option.some.injEq, Prod.mk.injEq] at h2
      obtain ⟨h3, h4, h5⟩ := ihs h1
      rw [← h2.1]
      exact ⟨⟨(shape_zero ids).1, h3⟩, ⟨(shape_zero ids).2, h4⟩, by simp [h5]⟩
    · simp only [Option.bind_eq_bind, Option.bind_eq_some_iff] at h
      obtain ⟨tt, hr, ⟨ts', e''⟩, h1, h2⟩ := h
      simp only [Option.some.injEq, Prod.mk.injEq] at h2
      obtain ⟨h3, h4, h5⟩ := ihs h1
      obtain ⟨h6, h7⟩ := ih _ _ _ hr
      rw [← h2.1]
      exact ⟨⟨h6, h3⟩, ⟨h7, h4⟩, by simp [h5]⟩

theorem resolve_shape {W A} : ∀ {fuel p t T}, resolve W A fuel p t = some T → T.Shape (anchorIDs A) ∧ T.Unverified := by
  intro fuel
  induction fuel with
  | zero => intro p t T h; simp [resolve] at h
  | succ f ih =>
    intro p t T h
    unfold resolve at h
    simp only at h
    split at h
    · cases h
      simp [Tree.Shape, Tree.ShapeList, Tree.Unverified, Tree.UnverifiedList]
    · rename_i hna
      simp only [Option.bind_eq_bind, Option.bind_eq_some_iff] at h
      obtain ⟨⟨ts, e⟩, h1, h⟩ := h
      cases h
      obtain ⟨h3, h4, h5⟩ := resolveHints_shape (fun p t T h => ih h) h1
      unfold Tree.Shape Tree.Unverified
      refine ⟨⟨by simp, ?_, ?_, h3⟩, rfl, h4⟩
      · intro x hx hi
        cases hx
        exact absurd hi (by simpa using hna)
      · intro hn
        have : t.entity.hints = [] := by simpa using hn
        rw [this] at h5
        simpa using h5

theorem resolveTree_shape {W fuel} {r : Resolver} {t} (h : r.resolveTree W fuel = .ok (some t)) :
    t.Shape (anchorIDs r.anchors) ∧ t.Unverified ∧ t.sub? = none := by
  unfold Resolver.resolveTree at h
  repeat' split at h
  · cases h; exact ⟨(shape_zero _).1, (shape_zero []).2, rfl⟩
  · cases h; exact ⟨(shape_zero _).1, (shape_zero []).2, rfl⟩
  · cases h
  · have := Except.ok.inj h
    exact ⟨(resolve_shape this).1, (resolve_shape this).2, resolve_sub this⟩

theorem viaCache_sub {t : Tree} (h : t.sub? = none) : t.viaCache.sub? = none := by
  cases t
  simp only [Tree.sub?] at h
  subst h; rfl

/-! ## Any store: signatures -/

theorem verifiedAgainst_cons {sig A c} (x : Stmt) (h : VerifiedAgainst sig A c) : VerifiedAgainst sig A (x :: c) := by
  obtain ⟨pre, s, top, ta, keys, rfl, h⟩ := h
  exact ⟨x :: pre, s, top, ta, keys, rfl, h⟩

theorem verifiedAgainst_viaCache {sig A c} (h : VerifiedAgainst sig A c) : VerifiedAgainst sig A (c.map Stmt.viaCache) := by
  obtain ⟨pre, s, top, ta, keys, rfl, h1, h2, h3, h4⟩ := h
  exact ⟨pre.map Stmt.viaCache, s.viaCache, top.viaCache, ta, keys, by simp, h1, h2, h3, h4⟩

mutual
/-- Chains through a verified node above the leaf are signed with the anchor's keys. -/
theorem node_signed (sig A) : ∀ (t : Tree), t.Shape (anchorIDs A) → t.Unverified → (verifySigs sig A t).verified = true →
    t.sub? ≠ none → ∀ c ∈ chains (verifySigs sig A t), VerifiedAgainst sig A c
  | .node e s n as v x d ty i => by
    intro h hu hv hs c hc
    unfold Tree.Shape at h
    unfold Tree.Unverified at hu
    obtain ⟨h1, h2, h3, h4⟩ := h
    obtain ⟨rfl, hu⟩ := hu
    cases s with
    | none => exact absurd rfl hs
    | some s =>
      cases e with
      | none => exact absurd (h1 rfl).1 (by simp)
      | some e =>
        rw [verifySigs] at hv hc
        simp only [Bool.false_eq_true, if_false] at hv hc
        cases hm : matchingAnchor A e s with
        | some ta =>
          rw [hm] at hv hc
          simp only [Tree.verified, Bool.and_eq_true] at hv
          have hta := List.find?_some hm
          have hmem := List.mem_of_find?_eq_some hm
          simp only [Bool.and_eq_true, beq_iff_eq] at hta
          have hn := h2 e rfl (by rw [← hta.1.1]; exact List.mem_map_of_mem hmem)
          subst hn
          simp only [chains, List.mem_singleton] at hc
          subst hc
          refine ⟨[], s, e, ta, _, rfl, ?_, (anchorKeys_iff ta e _).mp rfl, (verify_iff _ _ _).mp hv.2, (verify_iff _ _ _).mp hv.1⟩
          rw [← find_firstAnchor]
          have : matchingAnchor A e s = A.find? (fun a => a.id == e.iss) := by
            unfold matchingAnchor
            congr 1; funext a
            have e1 : e.sub = e.iss := by rw [← hta.1.1, ← hta.1.2]
            have e2 : s.iss = e.iss := by rw [← hta.1.1, ← hta.2]
            simp [e1, e2]
          rw [← this]; exact hm
        | none =>
          rw [hm] at hv hc
          simp only [Tree.verified] at hv
          cases n with
          | true => rw [h3 rfl] at hv; simp [verifyAuths] at hv
          | false =>
            simp only [chains] at hc
            obtain ⟨tt, htt, ss, h5, h6, _, _, c', hc', rfl⟩ := (mem_chainsList_verifyAuths _ _ _ _ _ _ _).mp hc
            exact verifiedAgainst_cons _ (list_signed sig A as h4 hu tt htt h6 (by rw [h5]; simp) c' hc')
theorem list_signed (sig A) : ∀ (ts : List Tree), Tree.ShapeList (anchorIDs A) ts → Tree.UnverifiedList ts →
    ∀ t ∈ ts, (verifySigs sig A t).verified = true → t.sub? ≠ none → ∀ c ∈ chains (verifySigs sig A t), VerifiedAgainst sig A c
  | [] => by intro _ _ t ht; simp at ht
  | a :: ts => by
    intro h hu t ht hv hs c hc
    obtain ⟨h1, h2⟩ := h
    obtain ⟨h3, h4⟩ := hu
    have hn := node_signed sig A a h1 h3
    have hl := list_signed sig A ts h2 h4
    rcases List.mem_cons.mp ht with ht | ht
    · rw [ht] at hv hs hc; exact hn hv hs c hc
    · exact hl t ht hv hs c hc
end

/-- All chains of two or more statements of a verified tree are signed with the anchor's keys. -/
theorem root_signed (sig A) (t : Tree) (h : t.Shape (anchorIDs A)) (hu : t.Unverified) (hs : t.sub? = none)
    (c : Chain) (hc : c ∈ chains (verifySigs sig A t)) (hl : 2 ≤ c.length) : VerifiedAgainst sig A c := by
  cases t with
  | node e s n as v x d ty i =>
    simp only [Tree.sub?] at hs
    subst hs
    unfold Tree.Shape at h
    unfold Tree.Unverified at hu
    obtain ⟨h1, h2, h3, h4⟩ := h
    obtain ⟨rfl, hu⟩ := hu
    cases e with
    | none =>
      obtain ⟨_, rfl⟩ := h1 rfl
      unfold verifySigs at hc
      cases n <;> simp [verifyAuths, chains] at hc
    | some e =>
      unfold verifySigs at hc
      simp only [Bool.false_eq_true, if_false] at hc
      cases n with
      | true => simp only [chains, List.mem_singleton] at hc; subst hc; simp at hl
      | false =>
        simp only [chains] at hc
        obtain ⟨tt, htt, ss, h5, h6, _, _, c', hc', rfl⟩ := (mem_chainsList_verifyAuths _ _ _ _ _ _ _).mp hc
        exact verifiedAgainst_cons _ (list_signed sig A as h4 hu tt htt h6 (by rw [h5]; simp) c' hc')

/-- All chains of two or more statements are signed with the keys of `A`. -/
def SignedChains (sig : SigOracle) (A : List Anchor) (cs : List Chain) : Prop :=
  ∀ c ∈ cs, 2 ≤ c.length → VerifiedAgainst sig A c

/-- What the shared store may contain under the keys of resolvers. `cfg` gives the anchors for a resolver hash. -/
def StoreOk (sig : SigOracle) (cfg : Bytes → List Anchor) (S : Store Item) : Prop :=
  ∀ h : Bytes,
    (∀ t x, S (cacheKey (bytes Subsystem.trustTree.name) h) = some ⟨.tree t, x⟩ →
      t.Shape (anchorIDs (cfg h)) ∧ t.Unverified ∧ t.sub? = none) ∧
    (∀ cs x, S (cacheKey (bytes Subsystem.trustTreeChains.name) h) = some ⟨.chains cs, x⟩ →
      SignedChains sig (cfg h) cs)

/-- Invariant of a call sharing the store. -/
def CallOk (H : Hashes) (sig : SigOracle) (cfg : Bytes → List Anchor) (c : Call) : Prop :=
  c.world.sig = sig ∧ c.r.anchors = cfg (H.resolver c.r.start (anchorIDs c.r.anchors) c.r.types) ∧
  match c.phase with
  | .init => True
  | .miss => True
  | .resolved t => t.Shape (anchorIDs c.r.anchors) ∧ t.Unverified ∧ t.sub? = none
  | .verified t => t.Shape (anchorIDs c.r.anchors) ∧ t.sub? = none ∧ SignedChains sig c.r.anchors (chains t)
  | .done cs => SignedChains sig c.r.anchors cs

theorem get_cell {α : Type} {b : Backend} {S : Store α} {now k v} (h : b.get S now k = some v) : ∃ x, S k = some ⟨v, x⟩ := by
  unfold Backend.get at h
  cases hS : S k with
  | none => rw [hS] at h; cases h
  | some e =>
    rw [hS] at h
    dsimp only at h
    refine ⟨e.expires, ?_⟩
    have : e.val = v := by
      split at h
      · exact Option.some.inj h
      · split at h
        · cases h
        · exact Option.some.inj h
      · split at h
        · exact Option.some.inj h
        · cases h
    rw [← this]

theorem set_cell {α : Type} {b : Backend} {S : Store α} {now k v ttl} {e : CEntry α} (h : b.set S now k v ttl k = some e) :
    e.val = v := by
  unfold Backend.set at h
  repeat' split at h
  all_goals (rw [put_same] at h; cases h)
  all_goals rfl

theorem storeOk_put {sig cfg S k} (h : StoreOk sig cfg S) : StoreOk sig cfg (S.put k none) := by
  intro a
  constructor
  · intro t x hx
    by_cases hk : cacheKey (bytes Subsystem.trustTree.name) a = k
    · rw [← hk, put_same] at hx; cases hx
    · rw [put_other _ _ hk] at hx; exact (h a).1 t x hx
  · intro t x hx
    by_cases hk : cacheKey (bytes Subsystem.trustTreeChains.name) a = k
    · rw [← hk, put_same] at hx; cases hx
    · rw [put_other _ _ hk] at hx; exact (h a).2 t x hx

theorem storeOk_tree {b H sig cfg S tu ts} {r : Resolver} {t : Tree} (h : StoreOk sig cfg S)
    (hA : r.anchors = cfg (H.resolver r.start (anchorIDs r.anchors) r.types))
    (ht : t.Shape (anchorIDs r.anchors)) (hs : t.sub? = none) : StoreOk sig cfg (treeSet b H S tu ts r t) := by
  intro a
  unfold treeSet Resolver.treeKey
  constructor
  · intro t' x hx
    by_cases hk : cacheKey (bytes Subsystem.trustTree.name) a =
        cacheKey (bytes Subsystem.trustTree.name) (H.resolver r.start (anchorIDs r.anchors) r.types)
    · have hk2 := (key_inj hk).2
      rw [← hk2] at hx hA
      have := set_cell hx
      simp only [Item.tree.injEq] at this
      subst this
      rw [← hA]
      exact ⟨(viaCache_shape _ _ ht).1, (viaCache_shape _ _ ht).2, viaCache_sub hs⟩
    · rw [set_other _ _ _ _ _ hk] at hx
      exact (h a).1 t' x hx
  · intro cs x hx
    rw [set_other _ _ _ _ _ (by intro hk; cases (key_inj hk).1)] at hx
    exact (h a).2 cs x hx

theorem storeOk_chains {b H sig cfg S tu ts} {r : Resolver} {t : Tree} {cs} (h : StoreOk sig cfg S)
    (hA : r.anchors = cfg (H.resolver r.start (anchorIDs r.anchors) r.types))
    (hcs : SignedChains sig r.anchors cs) : StoreOk sig cfg (chainsSet b H S tu ts r t cs) := by
  intro a
  unfold chainsSet Resolver.chainsKey
  constructor
  · intro t' x hx
    rw [set_other _ _ _ _ _ (by intro hk; cases (key_inj hk).1)] at hx
    exact (h a).1 t' x hx
  · intro cs' x hx
    by_cases hk : cacheKey (bytes Subsystem.trustTreeChains.name) a =
        cacheKey (bytes Subsystem.trustTreeChains.name) (H.resolver r.start (anchorIDs r.anchors) r.types)
    · have hk2 := (key_inj hk).2
      rw [← hk2] at hx hA
      have := set_cell hx
      simp only [Item.chains.injEq] at this
      subst this
      rw [← hA]
      intro c' hc' hl
      obtain ⟨c0, hc0, rfl⟩ := List.mem_map.mp hc'
      exact verifiedAgainst_viaCache (hcs c0 hc0 (by simpa using hl))
    · rw [set_other _ _ _ _ _ hk] at hx
      exact (h a).2 cs' x hx

theorem chainsGet_ok {b H sig cfg S now} {r : Resolver} {cs} (h : StoreOk sig cfg S)
    (hA : r.anchors = cfg (H.resolver r.start (anchorIDs r.anchors) r.types))
    (hg : chainsGet b H S now r = some cs) : SignedChains sig r.anchors cs := by
  unfold chainsGet at hg
  split at hg
  · rename_i hh
    cases hg
    obtain ⟨x, hx⟩ := get_cell hh
    rw [hA]
    exact (h _).2 _ _ hx
  · cases hg

theorem treeGet_ok {b H sig cfg S now} {r : Resolver} {t} (h : StoreOk sig cfg S)
    (hA : r.anchors = cfg (H.resolver r.start (anchorIDs r.anchors) r.types))
    (hg : treeGet b H S now r = some t) : t.Shape (anchorIDs r.anchors) ∧ t.Unverified ∧ t.sub? = none := by
  unfold treeGet at hg
  split at hg
  · rename_i hh
    cases hg
    obtain ⟨x, hx⟩ := get_cell hh
    have := (h _).1 _ _ hx
    rw [← hA] at this
    exact this
  · cases hg

/-- With one anchor configuration per key, everything shared through the store is signed with the right keys. -/
theorem shared_invariant {b H sig cfg S calls}
    (h : CacheReach b H (fun W r => W.sig = sig ∧
      r.anchors = cfg (H.resolver r.start (anchorIDs r.anchors) r.types)) S calls) :
    StoreOk sig cfg S ∧ ∀ c ∈ calls, CallOk H sig cfg c := by
  induction h with
  | init => exact ⟨fun _ => ⟨by intro t x h; simp [Store.empty] at h, by intro t x h; simp [Store.empty] at h⟩, by simp⟩
  | spawn h W fuel r hP ih =>
    refine ⟨ih.1, ?_⟩
    intro c hc
    rcases List.mem_cons.mp hc with rfl | hc
    · exact ⟨hP.1, hP.2, trivial⟩
    · exact ih.2 c hc
  | write h w ih =>
    refine ⟨fun a => ⟨?_, ?_⟩, ih.2⟩
    · rw [write_other w _ .trustTree (.inl rfl)]; exact (ih.1 a).1
    · rw [write_other w _ .trustTreeChains (.inr rfl)]; exact (ih.1 a).2
  | lose h k ih => exact ⟨storeOk_put ih.1, ih.2⟩
  | @step S S' pre post c c' h hs ih =>
    obtain ⟨hS, hcalls⟩ := ih
    obtain ⟨hsig, hA, hph⟩ : CallOk H sig cfg c := hcalls c (by simp)
    have hstep : StoreOk sig cfg S' ∧ CallOk H sig cfg c' := by
      cases hs with
      | hit hn hp hg => exact ⟨hS, hsig, hA, chainsGet_ok hS hA hg⟩
      | miss hn hp hg => exact ⟨hS, hsig, hA, trivial⟩
      | treeHit hn hp hg => exact ⟨hS, hsig, hA, treeGet_ok hS hA hg⟩
      | noStart hn hp hg hs => exact ⟨hS, hsig, hA, (shape_zero _).1, (shape_zero []).2, rfl⟩
      | resolve hn hu ht hp hg hs hr =>
        have := resolveTree_shape hr
        exact ⟨storeOk_tree hS hA this.1 this.2.2, hsig, hA, this⟩
      | @verify _ _ t0 hu ht hp =>
        rw [hp] at hph
        obtain ⟨h1, h2, h3⟩ := hph
        have h4 := verifySigs_shape c.world.sig c.r.anchors _ _ h1
        have h5 : (verifySigs c.world.sig c.r.anchors t0).sub? = none := by rw [verifySigs_sub, h3]
        refine ⟨storeOk_tree hS hA h4 h5, hsig, hA, h4, h5, ?_⟩
        intro c0 hc0 hl
        rw [← hsig]
        exact root_signed _ _ _ h1 h2 h3 c0 hc0 hl
      | hit2 hn hp hg => exact ⟨hS, hsig, hA, chainsGet_ok hS hA hg⟩
      | empty hn hp hg hcc => exact ⟨hS, hsig, hA, by intro c0 hc0; simp at hc0⟩
      | finish hn hu ht hp hg hcc =>
        rw [hp] at hph
        exact ⟨storeOk_chains hS hA hph.2.2, hsig, hA, hph.2.2⟩
    refine ⟨hstep.1, ?_⟩
    intro x hx
    simp only [List.mem_append, List.mem_cons] at hx
    rcases hx with hx | rfl | hx
    · exact hcalls x (by simp [hx])
    · exact hstep.2
    · exact hcalls x (by simp [hx])

end Oidfed
