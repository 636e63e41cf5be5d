import Verif.Spec.Endpoints
import Verif.Lemmas.ChainsExact
import Verif.Props.MetaResolver
import Verif.Props.Narrow
/-!
# C159: only published endpoints are asked
-/

namespace Oidfed
open Spec

theorem str_published {m : EntityMeta} {name : String} (h : m.str name ≠ "") : ∃ x ∈ m.fields, x.tag = name ∧ x.val = .str (m.str name) := by
  unfold EntityMeta.str at h ⊢
  cases hf : m.fields.find? (fun f => f.tag == name) with
  | none => rw [hf] at h; exact absurd rfl h
  | some x =>
    rw [hf] at h
    have ht : x.tag = name := by simpa using List.find?_some hf
    obtain ⟨n, t, ty, v⟩ := x
    cases v with
    | str s => exact ⟨_, List.mem_of_find?_eq_some hf, ht, rfl⟩
    | _ => exact absurd rfl h

theorem fetch_published {s : Stmt} (h : s.fetchEndpoint ≠ "") : PublishesAt s "federation_fetch_endpoint" s.fetchEndpoint := by
  refine ⟨h, ?_⟩
  unfold Stmt.fetchEndpoint at h ⊢
  cases hm : s.metadata with
  | none => rw [hm] at h; exact absurd rfl h
  | some m =>
    rw [hm] at h
    simp only at h ⊢
    cases hf : m.known .fed with
    | none => rw [hf] at h; exact absurd rfl h
    | some f =>
      rw [hf] at h
      obtain ⟨x, h1, h2, h3⟩ := str_published h
      exact ⟨m, f, x, rfl, hf, h1, h2, h3⟩

theorem resolve_published {s : Stmt} (h : s.resolveEndpoint ≠ "") : PublishesAt s "federation_resolve_endpoint" s.resolveEndpoint := by
  refine ⟨h, ?_⟩
  unfold Stmt.resolveEndpoint at h ⊢
  cases hm : s.metadata with
  | none => rw [hm] at h; exact absurd rfl h
  | some m =>
    rw [hm] at h
    simp only at h ⊢
    cases hf : m.known .fed with
    | none => rw [hf] at h; exact absurd rfl h
    | some f =>
      rw [hf] at h
      obtain ⟨x, h1, h2, h3⟩ := str_published h
      exact ⟨m, f, x, rfl, hf, h1, h2, h3⟩

/-- **C159** (statements): every subordinate statement of a returned chain was served at a fetch endpoint that its issuer publishes in its own configuration, in answer to
a request for its subject. -/
theorem C159_fetched (W : World) (r : Resolver) (fuel : Nat) (cs : List Chain) (h : r.chainsNoMeta W fuel = .ok (some cs)) (c : Chain) (hc : c ∈ cs)
    (i : Nat) (s : Stmt) (hs : c[i]? = some s) (h0 : 0 < i) (hi : i + 1 < c.length) :
    ∃ p a u, W.ec p s.iss = some a ∧ a.iss = s.iss ∧ a.sub = s.iss ∧ PublishesAt a "federation_fetch_endpoint" u ∧ W.fetch p u s.sub s.iss = some s := by
  obtain ⟨_, s0, _, _, hh⟩ := (mem_run_iff h c).mp hc
  rcases hh with ⟨_, rfl⟩ | ⟨steps, hv, last, hlast, rfl⟩
  · simp at hi
  · obtain ⟨k, rfl⟩ : ∃ k, i = k + 1 := ⟨i - 1, by omega⟩
    simp only [List.length_cons, List.length_append, List.length_map, List.length_nil] at hi
    have hk : k < steps.length := by omega
    rw [List.getElem?_cons_succ, List.getElem?_append_left (by simpa using hk), List.getElem?_map] at hs
    obtain ⟨st, hst, rfl⟩ := Option.map_eq_some_iff.mp hs
    obtain ⟨e, ok, _, _⟩ := step_ok hv k st hst
    refine ⟨posAt steps (k+1), st.ec, st.ec.fetchEndpoint, ?_, ok.sub_iss.symm, ?_, fetch_published ok.has_fetch, ?_⟩
    · rw [ok.sub_iss]; exact ok.served
    · rw [ok.sub_iss]; exact ok.self_issued
    · rw [ok.sub_iss, ok.sub_sub]; exact ok.fetched

/-- The two worlds only differ in what is served at endpoints that are not the published fetch endpoint of the asked entity. -/
theorem hintStmts_only (W : World) (F : Pos → String → ID → ID → Option Stmt)
    (hF : ∀ p id a u sub, W.ec p id = some a → a.iss = id → a.sub = id → a.timeValid (W.nowEC p) = true → PublishesAt a "federation_fetch_endpoint" u →
      F p u sub id = W.fetch p u sub id) (t : Pending) (p : Pos) (aID : ID) : hintStmts { W with fetch := F } t p aID = hintStmts W t p aID := by
  unfold hintStmts
  split
  · rfl
  · show (match W.ec p aID with | none => none | some a => _) = (match W.ec p aID with | none => none | some a => _)
    cases ha : W.ec p aID with
    | none => rfl
    | some a =>
      simp only
      split
      · rfl
      · rename_i hv
        split
        · rfl
        · rename_i he
          have hv' : (a.iss = a.sub ∧ a.iss = aID) ∧ a.timeValid (W.nowEC p) = true := by simpa using hv
          rw [hF p aID a _ _ ha hv'.1.2 (hv'.1.1 ▸ hv'.1.2) hv'.2 (fetch_published (by simpa using he))]

theorem resolveHints_only (W : World) (F : Pos → String → ID → ID → Option Stmt)
    (hF : ∀ t p aID, hintStmts { W with fetch := F } t p aID = hintStmts W t p aID) (rec rec' : Pos → Pending → Option Tree) (hr : ∀ p t, rec p t = rec' p t) (t : Pending) (p : Pos) :
    ∀ (hs : List ID) (i : Nat) (e : Time), resolveHints { W with fetch := F } rec t p i hs e = resolveHints W rec' t p i hs e := by
  intro hs
  induction hs with
  | nil => intro i e; rfl
  | cons a hs ih =>
    intro i e
    unfold resolveHints
    rw [hF]
    cases hintStmts W t (p ++ [i]) a with
    | none => simp only [ih]
    | some as => simp only [ih, hr]

theorem resolve_only (W : World) (F : Pos → String → ID → ID → Option Stmt)
    (hF : ∀ t p aID, hintStmts { W with fetch := F } t p aID = hintStmts W t p aID) (A : List Anchor) : ∀ (fuel : Nat) (p : Pos) (t : Pending),
    resolve { W with fetch := F } A fuel p t = resolve W A fuel p t := by
  intro fuel
  induction fuel with
  | zero => intro p t; rfl
  | succ fuel ih =>
    intro p t
    unfold resolve
    simp only [resolveHints_only W F hF _ _ ih]

/-- **C159** (only): it does not matter for the chains what is served anywhere else than at the fetch endpoints that are published in configurations that are in order: issued
by and about the entity that is asked, and valid at that moment. -/
theorem C159_nowhere_else (W : World) (F : Pos → String → ID → ID → Option Stmt)
    (hF : ∀ p id a u sub, W.ec p id = some a → a.iss = id → a.sub = id → InWindow (W.nowEC p) a → PublishesAt a "federation_fetch_endpoint" u →
      F p u sub id = W.fetch p u sub id) (r : Resolver) (fuel : Nat) :
    r.chainsNoMeta { W with fetch := F } fuel = r.chainsNoMeta W fuel ∧ r.validChains { W with fetch := F } fuel = r.validChains W fuel := by
  have h : r.chainsNoMeta { W with fetch := F } fuel = r.chainsNoMeta W fuel := by
    unfold Resolver.chainsNoMeta Resolver.resolveTree
    simp only [resolve_only W F (hintStmts_only W F (fun p id a u sub h1 h2 h3 h4 h5 => hF p id a u sub h1 h2 h3 ((timeValid_iff _ _).mp h4) h5))]
  exact ⟨h, by unfold Resolver.validChains; rw [h]⟩

/-- **C159** (metadata): what the smart remote resolver returns was served at the resolve endpoint that one of the requested anchors publishes, or was resolved locally. -/
theorem C159_resolved (E : Env) (rec : CallPos → Req → Option (Res Payload)) (p : CallPos) (q : Req) (r : Payload) (h : smartPayload E rec p q = some (.ok r)) :
    (∃ n a ec u, q.anchors[n]? = some a ∧ E.anchorEC p n a = some ec ∧ PublishesAt ec "federation_resolve_endpoint" u ∧ E.http p n u q = .body (some r)) ∨
      localPayload E rec p q = some (.ok r) := by
  rcases (C54_first_success E rec p q r).mp h with ⟨n, ⟨a, ec, h1, h2, h3, h4⟩, _⟩ | ⟨_, h⟩
  · exact .inl ⟨n, a, ec, _, h1, h2, resolve_published h3, h4⟩
  · exact .inr h

namespace ExEp

/-- a server outside of the federation hands out statements in the name of anyone -/
def rogue : Pos → String → ID → ID → Option Stmt := fun _ ep sub id => if ep = "evil/fetch" then some (Ex.mk id sub (some [9]) 9) else Ex.fetchOf ep sub

theorem known {id : ID} {a : Stmt} (h : Ex.ecOf id = some a) : a = Ex.leafEC ∨ a = Ex.iEC ∨ a = Ex.jEC ∨ a = Ex.tEC := by
  unfold Ex.ecOf at h
  split at h <;> cases h <;> simp

theorem not_published {id : ID} {a : Stmt} (h : Ex.ecOf id = some a) : ¬ PublishesAt a "federation_fetch_endpoint" "evil/fetch" := by
  rintro ⟨_, m, f, x, hm, hf, hx, _, hv⟩
  have key : ∀ ep : String, ep ≠ "evil/fetch" → some (Ex.fedMeta ep) = some m → False := by
    intro ep hne he
    cases he
    cases hf
    rw [List.mem_singleton.mp hx] at hv
    cases hv
    exact hne rfl
  rcases known h with rfl | rfl | rfl | rfl
  · cases hm; cases hf
  · exact key "i/fetch" (by decide) hm
  · exact key "j/fetch" (by decide) hm
  · exact key "t/fetch" (by decide) hm

end ExEp

/-- It serves something different, and the chains are the same. -/
example : ExEp.rogue [] "evil/fetch" "l" "t" ≠ Ex.W.fetch [] "evil/fetch" "l" "t" ∧
    Ex.R.validChains { Ex.W with fetch := ExEp.rogue } 5 = Ex.R.validChains Ex.W 5 := by
  refine ⟨(by intro h; cases h), (C159_nowhere_else Ex.W ExEp.rogue ?_ Ex.R 5).2⟩
  intro p id a u sub ha _ _ _ hu
  show (if u = "evil/fetch" then _ else _) = _
  rw [if_neg]
  · rfl
  · rintro rfl
    exact ExEp.not_published ha hu

/-- In the example federation the statements of `i` are served at its endpoint. -/
example : ∃ cs c s, Ex.R.chainsNoMeta Ex.W 5 = .ok (some cs) ∧ c ∈ cs ∧ c[1]? = some s ∧ 1 + 1 < c.length := ⟨_, _, _, rfl, List.mem_cons_self, rfl, by decide⟩

example : ∃ r, smartPayload Ex.ERemote (fun _ _ => none) [] Ex.req = some (.ok r) := ⟨_, rfl⟩

end Oidfed
