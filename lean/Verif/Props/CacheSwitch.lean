import Verif.Spec.CacheSwitch
import Verif.Props.Cache
/-!
# Exchanging the cache: C141
-/

namespace Oidfed
open Spec

variable {α : Type}

/-- The cache in use after an event. -/
def nextUsed (cur : Nat) : SwitchEv α → Nat
  | .install c => c
  | .useRedis c true => c
  | _ => cur

/-- The cache in use after a history that began with `cur` in use. -/
def usedAfter (cur : Nat) (evs : List (SwitchEv α)) : Nat := evs.foldl nextUsed cur

/-- What an event is for the cache `c`. -/
def seenOne (c cur : Nat) : SwitchEv α → Option (CacheEv α)
  | .set now k v ttl => if cur = c then some (.set now k v ttl) else none
  | .foreign d now k v ttl => if d = c then some (.set now k v ttl) else none
  | .lose d k => if d = c then some (.lose k) else none
  | _ => none

/-- What a history is for the cache `c`. -/
def seenBy (c : Nat) : Nat → List (SwitchEv α) → List (CacheEv α)
  | _, [] => []
  | cur, e :: evs => (seenOne c cur e).toList ++ seenBy c (nextUsed cur e) evs

theorem step_current (kind : Nat → Backend) (C : Caches α) (e : SwitchEv α) : (C.step kind e).current = nextUsed C.current e := by
  cases e with
  | useRedis c a => cases a <;> rfl
  | _ => rfl

theorem step_store (kind : Nat → Backend) (C : Caches α) (e : SwitchEv α) (c : Nat) :
    (C.step kind e).store c = (seenOne c C.current e).toList.foldl (kind c).step (C.store c) := by
  cases e with
  | set now k v ttl =>
    show (if c = C.current then _ else _) = _
    by_cases h : C.current = c
    · subst h; simp [seenOne, Backend.step]
    · simp [seenOne, h, Ne.symm h]
  | foreign d now k v ttl =>
    show (if c = d then _ else _) = _
    by_cases h : d = c
    · subst h; simp [seenOne, Backend.step]
    · simp [seenOne, h, Ne.symm h]
  | lose d k =>
    show (if c = d then _ else _) = _
    by_cases h : d = c
    · subst h; simp [seenOne, Backend.step]
    · simp [seenOne, h, Ne.symm h]
  | install d => rfl
  | useRedis d a => cases a <;> rfl

theorem run_from (kind : Nat → Backend) (c : Nat) : ∀ (evs : List (SwitchEv α)) (C : Caches α),
    (evs.foldl (Caches.step kind) C).current = usedAfter C.current evs ∧
    (evs.foldl (Caches.step kind) C).store c = (seenBy c C.current evs).foldl (kind c).step (C.store c)
  | [], _ => ⟨rfl, rfl⟩
  | e :: evs, C => by
    obtain ⟨h1, h2⟩ := run_from kind c evs (C.step kind e)
    simp only [List.foldl_cons, usedAfter, seenBy, List.foldl_append]
    rw [h1, h2, step_current, step_store]
    exact ⟨rfl, rfl⟩

theorem seenBy_append (c : Nat) : ∀ (pre post : List (SwitchEv α)) (cur : Nat), seenBy c cur (pre ++ post) = seenBy c cur pre ++ seenBy c (usedAfter cur pre) post
  | [], _, _ => rfl
  | e :: pre, post, cur => by
    show (seenOne c cur e).toList ++ seenBy c (nextUsed cur e) (pre ++ post) = _
    rw [seenBy_append c pre post]
    simp [seenBy, usedAfter]

theorem seenBy_split (c : Nat) : ∀ (evs : List (SwitchEv α)) (cur : Nat) (pre' post' : List (CacheEv α)) (x : CacheEv α), seenBy c cur evs = pre' ++ x :: post' →
    ∃ pre e post, evs = pre ++ e :: post ∧ seenOne c (usedAfter cur pre) e = some x ∧ seenBy c (nextUsed (usedAfter cur pre) e) post = post'
  | [], _, pre', _, _, h => by simp [seenBy] at h
  | e :: evs, cur, pre', post', x, h => by
    simp only [seenBy] at h
    cases ho : seenOne c cur e with
    | none =>
      rw [ho] at h
      obtain ⟨pre, e', post, rfl, h2, h3⟩ := seenBy_split c evs _ pre' post' x h
      exact ⟨e :: pre, e', post, rfl, h2, h3⟩
    | some y =>
      rw [ho] at h
      cases pre' with
      | nil =>
        simp only [Option.toList_some, List.cons_append, List.nil_append, List.cons.injEq] at h
        exact ⟨[], e, evs, rfl, by rw [← h.1]; exact ho, h.2⟩
      | cons z pre' =>
        simp only [Option.toList_some, List.cons_append, List.nil_append, List.cons.injEq] at h
        obtain ⟨pre, e', post, rfl, h2, h3⟩ := seenBy_split c evs _ pre' post' x h.2
        exact ⟨e :: pre, e', post, rfl, h2, h3⟩

theorem installs_next {e : SwitchEv α} {c : Nat} (h : Installs e c) (cur : Nat) : nextUsed cur e = c := by
  rcases h with rfl | rfl <;> rfl

theorem not_installs_next {e : SwitchEv α} (h : ∀ d, ¬ Installs e d) (cur : Nat) : nextUsed cur e = cur := by
  cases e with
  | install c => exact absurd (.inl rfl) (h c)
  | useRedis c a =>
    cases a with
    | true => exact absurd (.inr rfl) (h c)
    | false => rfl
  | _ => rfl

theorem used_none : ∀ {evs : List (SwitchEv α)}, (∀ e ∈ evs, ∀ d, ¬ Installs e d) → ∀ cur, usedAfter cur evs = cur
  | [], _, _ => rfl
  | e :: evs, h, cur => by
    show usedAfter (nextUsed cur e) evs = cur
    rw [not_installs_next (h e (by simp)), used_none (fun x hx => h x (List.mem_cons_of_mem _ hx))]

theorem inUse_used {evs : List (SwitchEv α)} {c : Nat} (h : InUse evs c) : usedAfter 0 evs = c := by
  rcases h with ⟨pre, e, post, rfl, h1, h2⟩ | ⟨rfl, h⟩
  · unfold usedAfter
    rw [List.foldl_append, List.foldl_cons, installs_next h1]
    exact used_none h2 c
  · exact used_none h 0

theorem used_cases : ∀ (evs : List (SwitchEv α)) (cur : Nat),
    (∃ pre e post, evs = pre ++ e :: post ∧ Installs e (usedAfter cur evs) ∧ ∀ e' ∈ post, ∀ d, ¬ Installs e' d) ∨
    (usedAfter cur evs = cur ∧ ∀ e ∈ evs, ∀ d, ¬ Installs e d)
  | [], _ => .inr ⟨rfl, by simp⟩
  | e :: evs, cur => by
    rcases used_cases evs (nextUsed cur e) with ⟨pre, e', post, h1, h2, h3⟩ | ⟨h1, h2⟩
    · exact .inl ⟨e :: pre, e', post, by rw [h1]; rfl, h2, h3⟩
    · by_cases hi : ∃ d, Installs e d
      · obtain ⟨d, hd⟩ := hi
        refine .inl ⟨[], e, evs, rfl, ?_, h2⟩
        show Installs e (usedAfter (nextUsed cur e) evs)
        rw [h1, installs_next hd]
        exact hd
      · have hi' : ∀ d, ¬ Installs e d := fun d hd => hi ⟨d, hd⟩
        refine .inr ⟨?_, ?_⟩
        · show usedAfter (nextUsed cur e) evs = cur
          rw [h1, not_installs_next hi']
        · intro x hx
          rcases List.mem_cons.mp hx with rfl | hx
          · exact hi'
          · exact h2 x hx

theorem used_inUse (evs : List (SwitchEv α)) : InUse evs (usedAfter 0 evs) := by
  rcases used_cases evs 0 with h | h
  · exact .inl h
  · exact .inr h

theorem seen_write {c : Nat} {pre : List (SwitchEv α)} {e : SwitchEv α} {t : Time} {k : Bytes} {v : α} {ttl : Int} :
    seenOne c (usedAfter 0 pre) e = some (.set t k v ttl) ↔ WritesTo pre e c t k v ttl := by
  constructor
  · intro h
    cases e with
    | set t' k' v' ttl' =>
      by_cases hc : usedAfter 0 pre = c
      · simp only [seenOne, hc, ↓reduceIte, Option.some.injEq, CacheEv.set.injEq] at h
        obtain ⟨rfl, rfl, rfl, rfl⟩ := h
        exact .inl ⟨rfl, hc ▸ used_inUse pre⟩
      · simp [seenOne, hc] at h
    | foreign d t' k' v' ttl' =>
      by_cases hc : d = c
      · simp only [seenOne, hc, ↓reduceIte, Option.some.injEq, CacheEv.set.injEq] at h
        obtain ⟨rfl, rfl, rfl, rfl⟩ := h
        exact .inr (by rw [hc])
      · simp [seenOne, hc] at h
    | lose d k' => by_cases hc : d = c <;> simp [seenOne, hc] at h
    | install d => simp [seenOne] at h
    | useRedis d a => simp [seenOne] at h
  · rintro (⟨rfl, h⟩ | rfl)
    · simp [seenOne, inUse_used h]
    · simp [seenOne]

theorem usedAfter_snoc (pre : List (SwitchEv α)) (e : SwitchEv α) (mid : List (SwitchEv α)) :
    usedAfter (nextUsed (usedAfter 0 pre) e) mid = usedAfter 0 (pre ++ e :: mid) := by
  unfold usedAfter
  rw [List.foldl_append, List.foldl_cons]

theorem lastWriteTo_of {evs : List (SwitchEv α)} {c : Nat} {k : Bytes} {t : Time} {v : α} {ttl : Int} (h : LastWrite (seenBy c 0 evs) k t v ttl) :
    LastWriteTo evs c k t v ttl := by
  obtain ⟨pre', post', h1, h2⟩ := h
  obtain ⟨pre, e, post, rfl, h3, h4⟩ := seenBy_split c evs 0 pre' post' _ h1
  refine ⟨pre, e, post, rfl, seen_write.mp h3, ?_⟩
  rintro mid e' post'' rfl t' v' ttl' hw
  refine h2 t' v' ttl' ?_
  rw [← h4, seenBy_append]
  refine List.mem_append_right _ ?_
  rw [usedAfter_snoc, seenBy, seen_write.mpr hw]
  exact List.mem_append_left _ (List.mem_singleton.mpr rfl)

theorem lastWriteKept_of {evs : List (SwitchEv α)} {c : Nat} {k : Bytes} {t : Time} {v : α} {ttl : Int} (h : LastWriteKeptIn evs c k t v ttl) :
    LastWriteKept (seenBy c 0 evs) k t v ttl := by
  obtain ⟨pre, e, post, rfl, h1, h2, h3⟩ := h
  refine ⟨seenBy c 0 pre, seenBy c (nextUsed (usedAfter 0 pre) e) post, ?_, ?_, ?_⟩
  · rw [seenBy_append, seenBy, seen_write.mpr h1]; rfl
  · intro t' v' ttl' hm
    obtain ⟨a, b, hab⟩ := List.append_of_mem hm
    obtain ⟨mid, e', post', rfl, g2, _⟩ := seenBy_split c post _ a b _ hab
    rw [usedAfter_snoc] at g2
    exact h2 mid e' post' rfl t' v' ttl' (seen_write.mp g2)
  · intro hm
    obtain ⟨a, b, hab⟩ := List.append_of_mem hm
    obtain ⟨mid, e', post', rfl, g2, _⟩ := seenBy_split c post _ a b _ hab
    refine h3 ?_
    cases e' with
    | set t' k' v' ttl' =>
      simp only [seenOne] at g2
      split at g2 <;> cases g2
    | foreign d t' k' v' ttl' =>
      simp only [seenOne] at g2
      split at g2 <;> cases g2
    | lose d k' =>
      simp only [seenOne] at g2
      split at g2
      · rename_i hd
        cases g2
        subst hd
        simp
      · cases g2
    | install d => cases g2
    | useRedis d a => cases g2

theorem run_get (kind : Nat → Backend) {evs : List (SwitchEv α)} {c : Nat} (h : InUse evs c) (now : Time) (k : Bytes) :
    (Caches.run kind evs).get kind now k = (kind c).get ((kind c).run (seenBy c 0 evs)) now k := by
  obtain ⟨h1, h2⟩ := run_from kind c evs (Caches.init : Caches α)
  have hc : (Caches.run kind evs).current = c := h1.trans (inUse_used h)
  unfold Caches.get
  rw [hc]
  show (kind c).get ((evs.foldl (Caches.step kind) Caches.init).store c) now k = _
  rw [h2]
  rfl

/-- **C141**: whatever caches were installed before and whatever was written to them, a read is answered by the cache that was installed last, with the last value that was
written under the key to that cache. -/
theorem C141_own_writes (kind : Nat → Backend) (evs : List (SwitchEv α)) (c : Nat) (hc : InUse evs c) (now : Time) (k : Bytes) (v : α)
    (h : (Caches.run kind evs).get kind now k = some v) : ∃ t ttl, LastWriteTo evs c k t v ttl := by
  rw [run_get kind hc] at h
  cases hk : kind c with
  | memory =>
    rw [hk] at h
    obtain ⟨t, ttl, h1, _⟩ := C33_memory_partial _ _ _ _ h
    exact ⟨t, ttl, lastWriteTo_of h1⟩
  | redis =>
    rw [hk] at h
    obtain ⟨t, ttl, h1, _⟩ := C33_redis_partial _ _ _ _ h
    exact ⟨t, ttl, lastWriteTo_of h1⟩

/-- **C141**: what was written to the cache in use is found as long as its lifetime (for Redis in whole milliseconds) lasts, also if other caches were in use since. -/
theorem C141_found_again (kind : Nat → Backend) (evs : List (SwitchEv α)) (c : Nat) (hc : InUse evs c) (now : Time) (k : Bytes) (t : Time) (v : α) (ttl : Int)
    (h : LastWriteKeptIn evs c k t v ttl) (hp : 0 < ttl) (ha : now < t + ttl / millisecond * millisecond) :
    (Caches.run kind evs).get kind now k = some v := by
  rw [run_get kind hc]
  cases hk : kind c with
  | memory =>
    refine C33_memory_found_partial _ _ _ _ _ _ (lastWriteKept_of h) hp ?_
    unfold Alive
    have : ttl / millisecond * millisecond ≤ ttl := Int.ediv_mul_le _ (by decide)
    exact Int.le_of_lt (Int.lt_of_lt_of_le ha (Int.add_le_add_left this t))
  | redis => exact C33_redis_found_partial _ _ _ _ _ _ (lastWriteKept_of h) hp ha

/-- **C141**: nothing is found in a cache that nobody has written to, whatever was written to the caches in use before. -/
theorem C141_fresh (kind : Nat → Backend) (evs : List (SwitchEv α)) (c : Nat) (hc : InUse evs c)
    (hf : ∀ pre e post, evs = pre ++ e :: post → ∀ t k v ttl, ¬ WritesTo pre e c t k v ttl) (now : Time) (k : Bytes) : (Caches.run kind evs).get kind now k = none := by
  cases h : (Caches.run kind evs).get kind now k with
  | none => rfl
  | some v =>
    obtain ⟨t, ttl, pre, e, post, h1, h2, _⟩ := C141_own_writes kind evs c hc now k v h
    exact absurd h2 (hf pre e post h1 t k v ttl)

/-- **C141**: if the Redis server does not answer, the cache in use and all it holds stay. -/
theorem C141_unreachable (kind : Nat → Backend) (evs evs' : List (SwitchEv α)) (c : Nat) : Caches.run kind (evs ++ .useRedis c false :: evs') = Caches.run kind (evs ++ evs') := by
  unfold Caches.run
  rw [List.foldl_append, List.foldl_cons, List.foldl_append]
  rfl

/-- There is always exactly one cache in use. -/
theorem C141_one_in_use (evs : List (SwitchEv α)) : ∃ c, InUse evs c ∧ ∀ d, InUse evs d → d = c :=
  ⟨_, used_inUse evs, fun _ h => (inUse_used h).symm⟩

namespace ExSw

/-- Cache 0 is in memory, the others are Redis servers. -/
def kinds : Nat → Backend
  | 0 => .memory
  | _ => .redis

/-- A value is written; the attempt to use a server that does not answer; another server is used and written to, also by others; the first cache is installed again. -/
def hist : List (SwitchEv Nat) :=
  [.set 0 [1] 7 5000000, .useRedis 2 false, .set 10 [2] 8 5000000, .useRedis 1 true, .foreign 1 20 [1] 9 9000000, .set 30 [2] 6 9000000, .lose 1 [1]]

example : InUse (hist ++ [.install 0]) 0 := .inl ⟨hist, _, [], rfl, .inl rfl, by simp⟩

example : (Caches.run kinds hist).get kinds 100 [2] = some 6 ∧ (Caches.run kinds hist).get kinds 100 [1] = none ∧
    (Caches.run kinds (hist ++ [.install 0])).get kinds 100 [2] = some 8 ∧ (Caches.run kinds (hist ++ [.install 0])).get kinds 100 [1] = some 7 ∧
    (Caches.run kinds (hist ++ [.install 5])).get kinds 100 [1] = none := ⟨rfl, rfl, rfl, rfl, rfl⟩

example : LastWriteKeptIn (hist ++ [.install 0]) 0 [2] 10 8 5000000 := by
  refine ⟨[.set 0 [1] 7 5000000, .useRedis 2 false], _, [.useRedis 1 true, .foreign 1 20 [1] 9 9000000, .set 30 [2] 6 9000000, .lose 1 [1], .install 0], rfl,
    .inl ⟨rfl, .inr ⟨rfl, ?_⟩⟩, ?_, by simp⟩
  · intro e he d hd
    simp only [List.mem_cons, List.not_mem_nil, or_false] at he
    rcases he with rfl | rfl <;> rcases hd with hd | hd <;> cases hd
  · intro mid e' post' h t' v' ttl' hw
    have hseen : seenOne 0 (usedAfter 0 ([.set 0 [1] 7 5000000, .useRedis 2 false] ++ .set 10 [2] 8 5000000 :: mid)) e' = some (.set t' [2] v' ttl') := seen_write.mpr hw
    match mid, h with
    | [], h => cases h; cases hseen
    | [_], h => cases h; cases hseen
    | [_, _], h => cases h; cases hseen
    | [_, _, _], h => cases h; cases hseen
    | [_, _, _, _], h => cases h; cases hseen
    | _ :: _ :: _ :: _ :: _ :: m, h =>
      simp only [List.cons_append, List.cons.injEq] at h
      have := h.2.2.2.2.2
      cases m <;> simp at this

end ExSw

end Oidfed
