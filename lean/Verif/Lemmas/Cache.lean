import Verif.Spec.Cache
import Verif.Lemmas.Chains
/-!
# Lemmas about the cache model
-/

namespace Oidfed
open Spec

/-! ## Keys -/

theorem bytes_inj {s t : String} (h : bytes s = bytes t) : s = t := by
  unfold bytes at h
  apply String.toByteArray_inj.mp
  have h1 : s.toUTF8.data = t.toUTF8.data := Array.toList_inj.mp h
  have : s.toUTF8 = t.toUTF8 := ByteArray.ext h1
  exact this

theorem b64Code_inj {m n : Nat} (hm : m < 64) (hn : n < 64) (h : b64Code m = b64Code n) : m = n := by
  unfold b64Code at h
  repeat' split at h
  all_goals omega

theorem b64Code_range (n : Nat) : b64Code n < 256 ∧ b64Code n ≠ 58 ∧ b64Code n ≠ 61 := by
  unfold b64Code
  repeat' split
  all_goals omega

theorem b64Char_inj {m n : Nat} (hm : m < 64) (hn : n < 64) (h : b64Char m = b64Char n) : m = n := by
  apply b64Code_inj hm hn
  have := congrArg UInt8.toNat h
  simp only [b64Char, UInt8.toNat_ofNat'] at this
  have h1 := (b64Code_range m).1
  have h2 := (b64Code_range n).1
  omega

theorem b64Char_ne (n : Nat) : b64Char n ≠ 58 ∧ b64Char n ≠ 61 := by
  obtain ⟨h1, h2, h3⟩ := b64Code_range n
  constructor <;> intro h <;> have := congrArg UInt8.toNat h <;>
    simp only [b64Char, UInt8.toNat_ofNat'] at this <;>
    simp at this <;> omega

theorem b64_no_colon : ∀ (x : Bytes), (58 : UInt8) ∉ b64 x
  | [] => by simp [b64]
  | [a] => by
    simp only [b64, List.mem_cons, List.not_mem_nil, or_false, not_or]
    exact ⟨(b64Char_ne _).1.symm, (b64Char_ne _).1.symm, by decide, by decide⟩
  | [a, b] => by
    simp only [b64, List.mem_cons, List.not_mem_nil, or_false, not_or]
    exact ⟨(b64Char_ne _).1.symm, (b64Char_ne _).1.symm, (b64Char_ne _).1.symm, by decide⟩
  | a :: b :: c :: r => by
    simp only [b64, List.mem_cons, not_or]
    exact ⟨(b64Char_ne _).1.symm, (b64Char_ne _).1.symm, (b64Char_ne _).1.symm, (b64Char_ne _).1.symm, b64_no_colon r⟩

theorem u8_ext {a b : UInt8} (h : a.toNat = b.toNat) : a = b := UInt8.toNat_inj.mp h

theorem b64_inj : ∀ (x y : Bytes), b64 x = b64 y → x = y
  | [], [], _ => rfl
  | [], [_], h => by simp [b64] at h
  | [], [_, _], h => by simp [b64] at h
  | [], _ :: _ :: _ :: _, h => by simp [b64] at h
  | [_], [], h => by simp [b64] at h
  | [a], [a'], h => by
    simp only [b64, List.cons.injEq, and_true] at h
    have ha := a.toNat_lt; have ha' := a'.toNat_lt
    have h1 := b64Char_inj (by omega) (by omega) h.1
    have h2 := b64Char_inj (by omega) (by omega) h.2
    rw [u8_ext (show a.toNat = a'.toNat by omega)]
  | [a], [_, _], h => by
    simp only [b64, List.cons.injEq] at h
    exact absurd h.2.2.1.symm (b64Char_ne _).2
  | [a], _ :: _ :: _ :: _, h => by
    simp only [b64, List.cons.injEq] at h
    exact absurd h.2.2.1.symm (b64Char_ne _).2
  | [_, _], [], h => by simp [b64] at h
  | [_, _], [_], h => by
    simp only [b64, List.cons.injEq] at h
    exact absurd h.2.2.1 (b64Char_ne _).2
  | [a, b], [a', b'], h => by
    simp only [b64, List.cons.injEq, and_true] at h
    have ha := a.toNat_lt; have ha' := a'.toNat_lt; have hb := b.toNat_lt; have hb' := b'.toNat_lt
    have h1 := b64Char_inj (by omega) (by omega) h.1
    have h2 := b64Char_inj (by omega) (by omega) h.2.1
    have h3 := b64Char_inj (by omega) (by omega) h.2.2
    rw [u8_ext (show a.toNat = a'.toNat by omega), u8_ext (show b.toNat = b'.toNat by omega)]
  | [_, _], _ :: _ :: _ :: _, h => by
    simp only [b64, List.cons.injEq] at h
    exact absurd h.2.2.2.1.symm (b64Char_ne _).2
  | _ :: _ :: _ :: _, [], h => by simp [b64] at h
  | _ :: _ :: _ :: _, [_], h => by
    simp only [b64, List.cons.injEq] at h
    exact absurd h.2.2.1 (b64Char_ne _).2
  | _ :: _ :: _ :: _, [_, _], h => by
    simp only [b64, List.cons.injEq] at h
    exact absurd h.2.2.2.1 (b64Char_ne _).2
  | a :: b :: c :: r, a' :: b' :: c' :: r', h => by
    simp only [b64, List.cons.injEq] at h
    obtain ⟨h1, h2, h3, h4, h5⟩ := h
    have ha := a.toNat_lt; have ha' := a'.toNat_lt; have hb := b.toNat_lt; have hb' := b'.toNat_lt
    have hc := c.toNat_lt; have hc' := c'.toNat_lt
    have h1 := b64Char_inj (by omega) (by omega) h1
    have h2 := b64Char_inj (by omega) (by omega) h2
    have h3 := b64Char_inj (by omega) (by omega) h3
    have h4 := b64Char_inj (by omega) (by omega) h4
    rw [u8_ext (show a.toNat = a'.toNat by omega), u8_ext (show b.toNat = b'.toNat by omega),
      u8_ext (show c.toNat = c'.toNat by omega), b64_inj r r' h5]

theorem colon_bytes : bytes ":" = [58] := rfl

/-- splitting at the first colon is unambiguous -/
theorem split_colon {x y u v : Bytes} (hx : (58 : UInt8) ∉ x) (hy : (58 : UInt8) ∉ y)
    (h : x ++ bytes ":" ++ u = y ++ bytes ":" ++ v) : x = y ∧ u = v := by
  rw [colon_bytes, List.append_assoc, List.append_assoc] at h
  induction x generalizing y with
  | nil =>
    cases y with
    | nil => simpa using h
    | cons b y =>
      simp only [List.nil_append, List.cons_append, List.cons.injEq] at h
      exact absurd (by simp [h.1]) hy
  | cons a x ih =>
    cases y with
    | nil =>
      simp only [List.nil_append, List.cons_append, List.cons.injEq] at h
      exact absurd (by simp [h.1]) hx
    | cons b y =>
      simp only [List.cons_append, List.cons.injEq] at h
      simp only [List.mem_cons, not_or] at hx hy
      obtain ⟨h1, h2⟩ := ih hx.2 hy.2 h.2
      exact ⟨by rw [h.1, h1], h2⟩

theorem name_no_colon (s : Subsystem) : (58 : UInt8) ∉ bytes s.name := by
  cases s <;> (unfold Subsystem.name; simp only; decide)

theorem name_inj {s s' : Subsystem} (h : bytes s.name = bytes s'.name) : s = s' := by
  have := bytes_inj h
  revert this
  cases s <;> cases s' <;> simp [Subsystem.name]

theorem key_inj {s s' : Subsystem} {k k' : Bytes} (h : cacheKey (bytes s.name) k = cacheKey (bytes s'.name) k') :
    s = s' ∧ k = k' := by
  obtain ⟨h1, h2⟩ := split_colon (name_no_colon s) (name_no_colon s') h
  exact ⟨name_inj h1, h2⟩

theorem entityStmtKey_inj {s i s' i' : Bytes} (h : entityStmtKey s i = entityStmtKey s' i') : s = s' ∧ i = i' := by
  have h1 := (key_inj h).2
  obtain ⟨h2, h3⟩ := split_colon (b64_no_colon _) (b64_no_colon _) h1
  exact ⟨b64_inj _ _ h2, b64_inj _ _ h3⟩

/-! ## Histories -/

theorem put_same {α : Type} (S : Store α) (k : Bytes) (e) : S.put k e k = e := by simp [Store.put]
theorem put_other {α : Type} (S : Store α) {k k' : Bytes} (e) (h : k' ≠ k) : S.put k e k' = S k' := by simp [Store.put, h]

theorem set_other {α : Type} (b : Backend) (S : Store α) {k k' : Bytes} (now v ttl) (h : k' ≠ k) :
    b.set S now k v ttl k' = S k' := by
  unfold Backend.set
  repeat' split
  all_goals rw [put_other _ _ h]

/-- induction over a history, newest event first -/
theorem run_snoc {α : Type} (b : Backend) (evs : List (CacheEv α)) (e : CacheEv α) :
    b.run (evs ++ [e]) = b.step (b.run evs) e := by simp [Backend.run]

theorem lastWrite_snoc {α : Type} {evs : List (CacheEv α)} {e : CacheEv α} {k t v ttl} (h : LastWrite evs k t v ttl)
    (he : ∀ t' v' ttl', e ≠ .set t' k v' ttl') : LastWrite (evs ++ [e]) k t v ttl := by
  obtain ⟨pre, post, rfl, hp⟩ := h
  refine ⟨pre, post ++ [e], by simp, ?_⟩
  intro t' v' ttl' hm
  rcases List.mem_append.mp hm with hm | hm
  · exact hp _ _ _ hm
  · exact he t' v' ttl' (List.mem_singleton.mp hm).symm

theorem lastWrite_new {α : Type} (evs : List (CacheEv α)) (k t v ttl) :
    LastWrite (evs ++ [.set t k v ttl]) k t v ttl := ⟨evs, [], by simp, by simp⟩

theorem rev_ind {α : Type} {P : List α → Prop} (h0 : P []) (h1 : ∀ l a, P l → P (l ++ [a])) : ∀ l, P l := by
  intro l
  have : ∀ l : List α, P l.reverse := by
    intro l
    induction l with
    | nil => exact h0
    | cons a l ih => rw [List.reverse_cons]; exact h1 _ _ ih
  simpa using this l.reverse

/-- What a cell of the in-memory store contains. -/
theorem memory_cell {α : Type} (k : Bytes) (evs : List (CacheEv α)) : ∀ e, Backend.memory.run evs k = some e →
    ∃ t ttl, LastWrite evs k t e.val ttl ∧ ((ttl = -1 ∧ e.expires = none) ∨ (1 ≤ ttl ∧ e.expires = some (t + ttl))) := by
  induction evs using rev_ind with
  | h0 => intro e h; simp [Backend.run, Store.empty] at h
  | h1 evs ev ih =>
    intro e h
    rw [run_snoc] at h
    cases ev with
    | lose k' =>
      by_cases hk : k = k'
      · subst hk; simp [Backend.step, put_same] at h
      · simp only [Backend.step, put_other _ _ hk] at h
        obtain ⟨t, ttl, h1, h2⟩ := ih e h
        exact ⟨t, ttl, lastWrite_snoc h1 (by intros; simp), h2⟩
    | set now k' v ttl =>
      by_cases hk : k = k'
      · subst hk
        simp only [Backend.step, Backend.set] at h
        split at h
        · rw [put_same] at h; cases h
          exact ⟨now, ttl, lastWrite_new _ _ _ _ _, .inl ⟨by assumption, rfl⟩⟩
        · split at h
          · rw [put_same] at h; cases h
          · rw [put_same] at h; cases h
            exact ⟨now, ttl, lastWrite_new _ _ _ _ _, .inr ⟨by omega, rfl⟩⟩
      · simp only [Backend.step, set_other _ _ _ _ _ hk] at h
        obtain ⟨t, ttl', h1, h2⟩ := ih e h
        exact ⟨t, ttl', lastWrite_snoc h1 (by intro t' v' ttl'; simp; intro _ h; exact absurd h.symm hk), h2⟩

/-- What a cell of the Redis store contains. -/
theorem redis_cell {α : Type} (k : Bytes) (evs : List (CacheEv α)) : ∀ e, Backend.redis.run evs k = some e →
    ∃ t ttl, LastWrite evs k t e.val ttl ∧ (ttl ≤ 0 ∨ (0 < ttl ∧ e.expires = some (t + redisTTL ttl))) := by
  induction evs using rev_ind with
  | h0 => intro e h; simp [Backend.run, Store.empty] at h
  | h1 evs ev ih =>
    intro e h
    rw [run_snoc] at h
    cases ev with
    | lose k' =>
      by_cases hk : k = k'
      · subst hk; simp [Backend.step, put_same] at h
      · simp only [Backend.step, put_other _ _ hk] at h
        obtain ⟨t, ttl, h1, h2⟩ := ih e h
        exact ⟨t, ttl, lastWrite_snoc h1 (by intros; simp), h2⟩
    | set now k' v ttl =>
      by_cases hk : k = k'
      · subst hk
        simp only [Backend.step, Backend.set] at h
        split at h
        · rw [put_same] at h; cases h
          exact ⟨now, ttl, lastWrite_new _ _ _ _ _, .inr ⟨by omega, rfl⟩⟩
        · split at h
          · rw [put_same] at h; cases h
            exact ⟨now, ttl, lastWrite_new _ _ _ _ _, .inl (by omega)⟩
          · rw [put_same] at h; cases h
            exact ⟨now, ttl, lastWrite_new _ _ _ _ _, .inl (by omega)⟩
      · simp only [Backend.step, set_other _ _ _ _ _ hk] at h
        obtain ⟨t, ttl', h1, h2⟩ := ih e h
        exact ⟨t, ttl', lastWrite_snoc h1 (by intro t' v' ttl'; simp; intro _ h; exact absurd h.symm hk), h2⟩

/-- Events that neither write nor lose a key leave its cell alone. -/
theorem foldl_other {α : Type} (b : Backend) (k : Bytes) : ∀ (evs : List (CacheEv α)) (S : Store α),
    (∀ t' v' ttl', CacheEv.set t' k v' ttl' ∉ evs) → CacheEv.lose k ∉ evs → evs.foldl b.step S k = S k := by
  intro evs
  induction evs with
  | nil => intros; rfl
  | cons e evs ih =>
    intro S h1 h2
    rw [List.foldl_cons, ih _ (fun t v ttl hm => h1 t v ttl (List.mem_cons_of_mem _ hm))
      (fun hm => h2 (List.mem_cons_of_mem _ hm))]
    cases e with
    | lose k' =>
      have : k ≠ k' := by rintro rfl; exact h2 (by simp)
      simp only [Backend.step, put_other _ _ this]
    | set now k' v ttl =>
      have : k ≠ k' := by rintro rfl; exact h1 now v ttl (by simp)
      simp only [Backend.step, set_other _ _ _ _ _ this]

theorem kept_cell {α : Type} (b : Backend) {evs : List (CacheEv α)} {k t v ttl} (h : LastWriteKept evs k t v ttl) :
    ∃ S, b.run evs k = b.set S t k v ttl k := by
  obtain ⟨pre, post, rfl, h1, h2⟩ := h
  refine ⟨b.run pre, ?_⟩
  have : b.run (pre ++ .set t k v ttl :: post) = post.foldl b.step (b.set (b.run pre) t k v ttl) := by
    simp [Backend.run, Backend.step]
  rw [this, foldl_other b k post _ h1 h2]

theorem until_int (tu x : Int) :
    (1 ≤ max minDuration (min maxDuration (x - tu)) → max minDuration (min maxDuration (x - tu)) ≤ x - tu) ∧
    (max minDuration (min maxDuration (x - tu)) = -1 → x = tu - 1) ∧
    (0 ≤ tu → x ≤ -62135596800 * 1000000000 → max minDuration (min maxDuration (x - tu)) < -1) := by
  unfold maxDuration minDuration
  omega

theorem until_pos {tu x : Time} (h : 1 ≤ untilT tu x) : untilT tu x ≤ x - tu := (until_int tu x).1 h

theorem until_neg_one {tu x : Time} (h : untilT tu x = -1) : x = tu - 1 := (until_int tu x).2.1 h

theorem until_zero {tu x : Time} (hu : 0 ≤ tu) (hx : x ≤ Time.zero) : untilT tu x < -1 := (until_int tu x).2.2 hu hx

theorem redisTTL_le (ttl : Int) : redisTTL ttl ≤ max ttl millisecond := by
  unfold redisTTL millisecond
  omega

theorem lastWrite_mem {α : Type} {evs : List (CacheEv α)} {k t v ttl} (h : LastWrite evs k t v ttl) :
    .set t k v ttl ∈ evs := by
  obtain ⟨pre, post, rfl, _⟩ := h
  simp

theorem memory_get {α : Type} {evs : List (CacheEv α)} {now k v} (h : Backend.memory.get (Backend.memory.run evs) now k = some v) :
    ∃ t ttl, LastWrite evs k t v ttl ∧ (ttl = -1 ∨ (1 ≤ ttl ∧ now ≤ t + ttl)) := by
  unfold Backend.get at h
  cases hc : Backend.memory.run evs k with
  | none => rw [hc] at h; cases h
  | some e =>
    obtain ⟨t, ttl, h1, h2 | h2⟩ := memory_cell k evs e hc
    · rw [hc] at h
      simp only [h2.2] at h
      cases h
      exact ⟨t, ttl, h1, .inl h2.1⟩
    · rw [hc] at h
      simp only [h2.2] at h
      split at h
      · cases h
      · rename_i hx
        cases h
        exact ⟨t, ttl, h1, .inr ⟨h2.1, by exact Int.not_lt.mp hx⟩⟩

theorem redis_get {α : Type} {evs : List (CacheEv α)} {now k v} (h : Backend.redis.get (Backend.redis.run evs) now k = some v) :
    ∃ t ttl, LastWrite evs k t v ttl ∧ (ttl ≤ 0 ∨ (0 < ttl ∧ now < t + redisTTL ttl)) := by
  unfold Backend.get at h
  cases hc : Backend.redis.run evs k with
  | none => rw [hc] at h; cases h
  | some e =>
    obtain ⟨t, ttl, h1, h2 | h2⟩ := redis_cell k evs e hc
    · rw [hc] at h
      dsimp only at h
      have : e.val = v := by
        split at h
        · exact Option.some.inj h
        · rename_i hb _; cases hb
        · split at h
          · exact Option.some.inj h
          · cases h
      subst this
      exact ⟨t, ttl, h1, .inl h2⟩
    · rw [hc] at h
      simp only [h2.2] at h
      split at h
      · rename_i hx
        cases h
        exact ⟨t, ttl, h1, .inr ⟨h2.1, hx⟩⟩
      · cases h

/-- The value under a statement key was put there by storing a statement for that very pair. -/
theorem stmt_write {H evs sub iss t v ttl} (hl : ∀ e ∈ evs, LibraryEv H e)
    (h : LastWrite evs (entityStmtKey (bytes sub) (bytes iss)) t v ttl) :
    ∃ st tu, (Write.stmt sub iss st tu t).ev H ∈ evs ∧ v = .stmt st.viaCache ∧ ttl = untilT tu st.exp := by
  have hm := lastWrite_mem h
  rcases hl _ hm with ⟨sub', iss', st, tu, ts, he⟩ | ⟨now, s, k, v', ttl', hs, he⟩ | ⟨k, he⟩
  · simp only [Write.ev, CacheEv.set.injEq] at he
    obtain ⟨rfl, h2, rfl, rfl⟩ := he
    obtain ⟨h3, h4⟩ := entityStmtKey_inj h2
    have := bytes_inj h3; have := bytes_inj h4
    subst_vars
    exact ⟨st, tu, hm, rfl, rfl⟩
  · simp only [CacheEv.set.injEq] at he
    exact absurd (key_inj he.2.1).1.symm hs
  · cases he

end Oidfed
