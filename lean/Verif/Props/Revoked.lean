import Verif.Props.EndToEnd
import Verif.Props.Cache
/-!
# Revocation and key roll-over take effect: C149
-/

namespace Oidfed
open Spec

/-- The statement says when it expires, and that is before every clock reading of the resolution. -/
def Outdated (W : World) (st : Stmt) : Prop := st.exp ≠ Time.zero ∧ ∀ now, Reading W now → st.exp < now

theorem not_inWindow {W : World} {st : Stmt} (h : Outdated W st) : ¬ ∃ now, Reading W now ∧ InWindow now st := by
  rintro ⟨now, h1, _, h2 | h2⟩
  · exact h.1 h2
  · exact absurd h2 (Int.not_le.mpr (h.2 now h1))

/-- C149 (revocation): if everything that was ever served in the name of `a` about `x` is outdated, no returned chain contains a statement of `a` about `x`. -/
theorem C149_revoked (b : Backend) (H : Hashes) (P : String → Option Jws) (D : Jws → Option Stmt) (s : FState)
    (hs : FReach b H P D LibraryLookup s) (W : World) (hW : AnswersOf s W) (r : Resolver) (c : Chain) (h : Produces W r c) (a x : ID)
    (old : ∀ q st, (q, st) ∈ s.served → st.iss = a → st.sub = x → Outdated W st) :
    ∀ st ∈ c.tail, ¬ (st.iss = a ∧ st.sub = x) := by
  rintro st hst ⟨h1, h2⟩
  obtain ⟨q, st0, hq, he, _⟩ := (C101_chain_from_issuers b H P D s hs W hW r c h).2 st hst
  have e : st.iss = st0.iss ∧ st.sub = st0.sub ∧ st.exp = st0.exp := by
    rcases he with rfl | rfl
    · exact ⟨rfl, rfl, rfl⟩
    · exact ⟨rfl, rfl, rfl⟩
  have ho := old q st0 hq (by rw [← e.1]; exact h1) (by rw [← e.2.1]; exact h2)
  obtain ⟨k, hk⟩ := List.mem_iff_getElem?.mp hst
  rw [List.getElem?_tail] at hk
  refine not_inWindow (W := W) (st := st) ⟨by rw [e.2.2]; exact ho.1, by rw [e.2.2]; exact ho.2⟩ ?_
  exact C05_time_valid_partial W r c h k st hk

/-- C149 (key roll-over): if every statement ever served that vouches for the key `n` of `x` is outdated, then what `x` issued is verified with keys without `n`
in every returned chain in which `x` is not the anchor. -/
theorem C149_retired_key (b : Backend) (H : Hashes) (P : String → Option Jws) (D : Jws → Option Stmt) (s : FState)
    (hs : FReach b H P D LibraryLookup s) (W : World) (hW : AnswersOf s W) (r : Resolver) (c : Chain) (h : Produces W r c) (x : ID) (n : Nat)
    (old : ∀ q st ks, (q, st) ∈ s.served → st.sub = x → st.jwks = some ks → n ∈ ks → Outdated W st)
    (k : Nat) (st : Stmt) (hk : k + 2 < c.length) (hst : c[k]? = some st) (hx : st.iss = x) :
    ∃ ks, n ∉ ks ∧ Signed W.sig (some ks) st := by
  have hl : 2 ≤ c.length := by omega
  obtain ⟨next, hn⟩ : ∃ next, c[k+1]? = some next := ⟨_, List.getElem?_eq_getElem (by omega)⟩
  have hsig := (C03_signed_by_superior_keys W r c h hl).1 k st next hk hst hn
  have hsub := linked_iss (C01_chains_linked W r c h hl) k st next hk hst hn
  obtain ⟨ks, raw, h1, h2, h3, h4⟩ := hsig
  refine ⟨ks, ?_, ks, raw, rfl, h2, h3, h4⟩
  intro hmem
  have hnt : next ∈ c.tail := List.mem_of_getElem? (by rw [List.getElem?_tail]; exact hn)
  obtain ⟨q, st0, hq, he, _⟩ := (C101_chain_from_issuers b H P D s hs W hW r c h).2 next hnt
  have e : next.jwks = st0.jwks ∧ next.sub = st0.sub ∧ next.exp = st0.exp := by
    rcases he with rfl | rfl
    · exact ⟨rfl, rfl, rfl⟩
    · exact ⟨rfl, rfl, rfl⟩
  have ho := old q st0 ks hq (by rw [← e.2.1, ← hsub]; exact hx) (by rw [← e.1]; exact h1) hmem
  refine not_inWindow (W := W) (st := next) ⟨by rw [e.2.2]; exact ho.1, by rw [e.2.2]; exact ho.2⟩ ?_
  exact C05_time_valid_partial W r c h k next hn

/-- C149 with the in-memory store for chains, under every interleaving of any number of resolvers. Missing: Redis, where chains are kept for ever (C128_redis_refuted). -/
theorem C149_revoked_cached_partial (b : Backend) (H : Hashes) (P : String → Option Jws) (D : Jws → Option Stmt) (s : FState)
    (hs : FReach b H P D LibraryLookup s) (S : Store Item) (calls : List Call) (hr : CacheReach .memory H (fun _ _ => True) S calls)
    (call : Call) (hc : call ∈ calls) (hW : AnswersOf s call.world) (cs : List Chain) (hd : call.phase = .done cs) (c : Chain) (hm : c ∈ cs) (a x : ID)
    (old : ∀ q st, (q, st) ∈ s.served → st.iss = a → st.sub = x → Outdated call.world st) :
    ∀ st ∈ c.tail, ¬ (st.iss = a ∧ st.sub = x) :=
  C149_revoked b H P D s hs call.world hW call.r c ⟨call.fuel, cs, .inl (C34_memory H S calls hr call hc cs hd), hm⟩ a x old

namespace ExRv

/-- The statements served, by name: `i`'s statement about the leaf is the only one that expires early, at 100. -/
def stmt : String → Option Stmt
  | "l" => some { Ex.leafEC with exp := 1000 }
  | "i" => some { Ex.iEC with exp := 1000 }
  | "j" => some { Ex.jEC with exp := 1000 }
  | "t" => some { Ex.tEC with exp := 1000 }
  | "il" => some (Ex.mk "i" "l" (some [9, 1]) 2)
  | "jl" => some { Ex.mk "j" "l" (some [1]) 2 with exp := 1000 }
  | "tj" => some { Ex.mk "t" "j" (some [2]) 3 with exp := 1000 }
  | _ => none

def P (body : String) : Option Jws := some ⟨[("n", .str body)], [⟨some "entity-statement+jwt", some "k", some "ES512", 0⟩]⟩

def D (m : Jws) : Option Stmt :=
  match m.payload with
  | [(_, .str s)] => stmt s
  | _ => none

/-- The world at 500. -/
def W : World where
  start := fun id => if id = "l" then stmt "l" else none
  ec := fun _ id => if id = "i" then stmt "i" else if id = "j" then stmt "j" else if id = "t" then stmt "t" else none
  fetch := fun _ ep sub iss =>
    if ep = "i/fetch" ∧ sub = "l" ∧ iss = "i" then stmt "il" else if ep = "j/fetch" ∧ sub = "l" ∧ iss = "j" then stmt "jl"
    else if ep = "t/fetch" ∧ sub = "j" ∧ iss = "t" then stmt "tj" else none
  nowEC := fun _ => 500
  nowSub := fun _ => 500
  host := Ex.hostOf
  sig := Ex.sigOf

def served : List (Request × Stmt) :=
  [(⟨"t/fetch", some "j"⟩, { Ex.mk "t" "j" (some [2]) 3 with exp := 1000 }), (⟨configURL "t", none⟩, { Ex.tEC with exp := 1000 }),
   (⟨"j/fetch", some "l"⟩, { Ex.mk "j" "l" (some [1]) 2 with exp := 1000 }), (⟨configURL "j", none⟩, { Ex.jEC with exp := 1000 }),
   (⟨"i/fetch", some "l"⟩, Ex.mk "i" "l" (some [9, 1]) 2), (⟨configURL "i", none⟩, { Ex.iEC with exp := 1000 }),
   (⟨configURL "l", none⟩, { Ex.leafEC with exp := 1000 })]

theorem reach : ∃ s, FReach .memory exHashes P D LibraryLookup s ∧ AnswersOf s W ∧ s.served = served := by
  have h1 := FReach.step .init (FStep.miss (b := .memory) (H := exHashes) (P := P) (D := D) (Allowed := LibraryLookup) (s := FState.init)
    (o := .config "l") (now := 0) trivial rfl)
  have h1 := FReach.step h1 (FStep.obtained (o := .config "l") (a := some ⟨200, "", "l"⟩) (st := { Ex.leafEC with exp := 1000 }) (tUntil := 0) (tSet := 0) (by simp) rfl)
  have h1 := FReach.step h1 (FStep.miss (o := .config "i") (now := 0) trivial rfl)
  have h1 := FReach.step h1 (FStep.obtained (o := .config "i") (a := some ⟨200, "", "i"⟩) (st := { Ex.iEC with exp := 1000 }) (tUntil := 0) (tSet := 0) (by simp) rfl)
  have h1 := FReach.step h1 (FStep.miss (o := .fetch "i/fetch" "l" "i") (now := 0) ⟨by decide, { Ex.iEC with exp := 1000 }, by simp, rfl⟩ rfl)
  have h1 := FReach.step h1 (FStep.obtained (o := .fetch "i/fetch" "l" "i") (a := some ⟨200, "", "il"⟩) (st := Ex.mk "i" "l" (some [9, 1]) 2) (tUntil := 0) (tSet := 0) (by simp) rfl)
  have h1 := FReach.step h1 (FStep.miss (o := .config "j") (now := 0) trivial rfl)
  have h1 := FReach.step h1 (FStep.obtained (o := .config "j") (a := some ⟨200, "", "j"⟩) (st := { Ex.jEC with exp := 1000 }) (tUntil := 0) (tSet := 0) (by simp) rfl)
  have h1 := FReach.step h1 (FStep.miss (o := .fetch "j/fetch" "l" "j") (now := 0) ⟨by decide, { Ex.jEC with exp := 1000 }, by simp, rfl⟩ rfl)
  have h1 := FReach.step h1 (FStep.obtained (o := .fetch "j/fetch" "l" "j") (a := some ⟨200, "", "jl"⟩) (st := { Ex.mk "j" "l" (some [1]) 2 with exp := 1000 }) (tUntil := 0) (tSet := 0) (by simp) rfl)
  have h1 := FReach.step h1 (FStep.miss (o := .config "t") (now := 0) trivial rfl)
  have h1 := FReach.step h1 (FStep.obtained (o := .config "t") (a := some ⟨200, "", "t"⟩) (st := { Ex.tEC with exp := 1000 }) (tUntil := 0) (tSet := 0) (by simp) rfl)
  have h1 := FReach.step h1 (FStep.miss (o := .fetch "t/fetch" "j" "t") (now := 0) ⟨by decide, { Ex.tEC with exp := 1000 }, by simp, rfl⟩ rfl)
  have h1 := FReach.step h1 (FStep.obtained (o := .fetch "t/fetch" "j" "t") (a := some ⟨200, "", "tj"⟩) (st := { Ex.mk "t" "j" (some [2]) 3 with exp := 1000 }) (tUntil := 0) (tSet := 0) (by simp) rfl)
  refine ⟨_, h1, ⟨?_, ?_, ?_⟩, rfl⟩
  · intro id st h
    simp only [W] at h
    split at h
    · rename_i e; subst e; cases h; simp
    · cases h
  · intro p id st h
    simp only [W] at h
    repeat' split at h
    all_goals first | (rename_i e; subst e; cases h; simp) | cases h
  · intro p ep sub iss st h
    simp only [W] at h
    repeat' split at h
    all_goals first | (rename_i e; obtain ⟨rfl, rfl, rfl⟩ := e; cases h; simp) | cases h

def chain : Chain := [{ Ex.leafEC with exp := 1000 }, { Ex.mk "j" "l" (some [1]) 2 with exp := 1000 }, { Ex.mk "t" "j" (some [2]) 3 with exp := 1000 },
  { Ex.tEC with exp := 1000 }]

theorem run : Ex.R.chainsNoMeta W 5 = .ok (some [chain]) := by rfl

/-- Non-vacuity: only the chain over `j` is returned; what `i` has ever stated about the leaf, and what vouches for the leaf's key 9, is outdated. -/
example : ∃ s, FReach .memory exHashes P D LibraryLookup s ∧ AnswersOf s W ∧ Produces W Ex.R chain ∧
    (∀ q st, (q, st) ∈ s.served → st.iss = "i" → st.sub = "l" → Outdated W st) ∧
    (∀ q st ks, (q, st) ∈ s.served → st.sub = "l" → st.jwks = some ks → 9 ∈ ks → Outdated W st) := by
  obtain ⟨s, h1, h2, h3⟩ := reach
  have hold : Outdated W (Ex.mk "i" "l" (some [9, 1]) 2) := by
    refine ⟨by decide, ?_⟩
    rintro now ⟨p, rfl | rfl⟩
    · exact (by decide : (100 : Int) < 500)
    · exact (by decide : (100 : Int) < 500)
  refine ⟨s, h1, h2, ⟨5, [chain], .inl run, by simp⟩, ?_, ?_⟩
  · intro q st hm hi hs
    rw [h3] at hm
    simp only [served, List.mem_cons, List.not_mem_nil, or_false, Prod.mk.injEq] at hm
    rcases hm with ⟨_, rfl⟩ | ⟨_, rfl⟩ | ⟨_, rfl⟩ | ⟨_, rfl⟩ | ⟨_, rfl⟩ | ⟨_, rfl⟩ | ⟨_, rfl⟩ <;>
      first | exact hold | exact absurd hi (by decide) | exact absurd hs (by decide)
  · intro q st ks hm hs hk hn
    rw [h3] at hm
    simp only [served, List.mem_cons, List.not_mem_nil, or_false, Prod.mk.injEq] at hm
    rcases hm with ⟨_, rfl⟩ | ⟨_, rfl⟩ | ⟨_, rfl⟩ | ⟨_, rfl⟩ | ⟨_, rfl⟩ | ⟨_, rfl⟩ | ⟨_, rfl⟩ <;>
      first | exact hold | exact absurd hs (by decide) | (cases hk; exact absurd hn (by decide))

/-- Long after the example federation was set up; nobody says when statements expire. -/
def never : World := { Ex.W with
  nowEC := fun _ => 1000000000000000000000
  nowSub := fun _ => 1000000000000000000000
  ec := fun _ id => (Ex.ecOf id).map (fun s => { s with exp := Time.zero })
  fetch := fun _ ep sub _ => (Ex.fetchOf ep sub).map (fun s => { s with exp := Time.zero }) }

end ExRv

/-- C149 is false for statements that do not say when they expire: they are accepted at all times, so what was stated without expiry cannot be taken back. -/
theorem C149_without_expiry_refuted : ¬ ∀ (W : World) (r : Resolver) (c : Chain), Produces W r c → ∀ st ∈ c.tail, st.exp ≠ Time.zero := by
  intro h
  refine h ExRv.never Ex.R [Ex.leafEC, { Ex.mk "i" "l" (some [1]) 2 with exp := Time.zero },
    { Ex.mk "t" "i" (some [2]) 3 with constraints := some Ex.cons, exp := Time.zero }, { Ex.tEC with exp := Time.zero }]
    ⟨5, _, .inl rfl, List.mem_cons_self⟩ { Ex.mk "i" "l" (some [1]) 2 with exp := Time.zero } (by simp) rfl

end Oidfed
