import Verif.Lemmas.Fuel
import Verif.Examples.Federation
/-!
# Trust chain resolution: C01 – C14, C60

All theorems quantify over every world (every network answer, cache content, clock and signature oracle), every
resolver configuration and every chain in a returned list.
-/

namespace Oidfed
open Spec

/-- The example federation produces a chain of four statements (non-vacuity witness used below). -/
theorem ex_produces : Produces Ex.W Ex.R Ex.chainI :=
  ⟨5, _, .inl Ex.run, by simp⟩

/-! ## C01 -/

/-- C01: every returned chain with at least two statements is linked and ends at a configured anchor. -/
theorem C01_chains_linked (W : World) (r : Resolver) (c : Chain) (h : Produces W r c) (hl : 2 ≤ c.length) :
    Linked r.anchors c := by
  obtain ⟨s0, steps, hs, hv, hc⟩ := produces_path h hl
  obtain ⟨st, hlast, hceq⟩ := hc
  refine ⟨_, steps.map Step.sub, st.ec, hceq, ?_, ?_, ?_, ?_, ?_⟩
  · cases hst : steps with
    | nil => exact absurd hst (ValidPath.ne_nil hv)
    | cons a rest =>
      obtain ⟨e, ok, he, _⟩ := step_ok hv 0 a (by simp [hst])
      exact ⟨a.sub, by simp, by rw [ok.sub_sub, he rfl]⟩
  · intro k s next hk hn
    simp only [List.getElem?_map, Option.map_eq_some_iff] at hk hn
    obtain ⟨a, ha, rfl⟩ := hk
    obtain ⟨b, hb, rfl⟩ := hn
    obtain ⟨_, oka, _, _⟩ := step_ok hv k a ha
    obtain ⟨e, okb, _, he⟩ := step_ok hv (k+1) b hb
    obtain ⟨a', ha', rfl⟩ := he k rfl
    rw [ha] at ha'; cases ha'
    rw [oka.sub_iss, okb.sub_sub]
  · refine ⟨st.sub, by simp [hlast], ?_⟩
    obtain ⟨k, hk⟩ := List.mem_iff_getElem?.mp (List.mem_of_getLast? hlast)
    obtain ⟨_, ok, _⟩ := step_ok hv k st hk
    exact ok.sub_iss
  · obtain ⟨k, hk⟩ := List.mem_iff_getElem?.mp (List.mem_of_getLast? hlast)
    obtain ⟨_, ok, _⟩ := step_ok hv k st hk
    exact ok.self_issued
  · obtain ⟨s, ta, keys, h1, ⟨pre, post, hA, hid, _⟩, _⟩ := hv.top
    rw [hlast] at h1; cases h1
    exact ⟨ta, by simp [hA], hid⟩

example : Produces Ex.W Ex.R Ex.chainI ∧ 2 ≤ Ex.chainI.length := ⟨ex_produces, by decide⟩

/-! ## C02 -/

/-- What C02 asks for: the chain ends at an anchor and every statement's signature was verified under some key set. -/
def AnchoredVerified (W : World) (r : Resolver) (c : Chain) : Prop :=
  (∃ top, c.getLast? = some top ∧ ∃ a ∈ r.anchors, a.id = top.iss) ∧ ∀ s ∈ c, ∃ keys, Signed W.sig keys s

/-- an unsigned configuration without authority hints -/
def ex02 : Stmt := { Ex.mk "l" "l" none 1 with metadata := some Ex.rpMeta, raw := none }

/-- C02 is false: a starting entity without authority hints yields a one-element "valid" chain although it reaches no anchor
and no signature verifies. -/
theorem C02_every_chain_anchored_refuted :
    ¬ ∀ (W : World) (r : Resolver) (c : Chain), Produces W r c → AnchoredVerified W r c := by
  intro h
  have hp : Produces { Ex.W with start := fun _ => some ex02 } Ex.R [ex02] :=
    ⟨1, [[ex02]], .inr rfl, by simp⟩
  obtain ⟨_, h2⟩ := h _ _ _ hp
  obtain ⟨keys, ks, r, _, _, h3, _⟩ := h2 ex02 (by simp)
  simp [ex02] at h3

/-- C02 for chains of two or more statements; and exactly which shorter chains are returned. Missing: one-element chains,
for which the claim is false. -/
theorem C02_every_chain_anchored_partial (W : World) (r : Resolver) (c : Chain) (h : Produces W r c) :
    (2 ≤ c.length ∧ AnchoredVerified W r c) ∨
    (∃ s0, W.start r.start = some s0 ∧ c = [restrictTypes r.types s0] ∧
      ((∃ a ∈ r.anchors, a.id = s0.iss) ∨ s0.hints = [])) := by
  by_cases hl : 2 ≤ c.length
  · left
    refine ⟨hl, ?_, ?_⟩
    · obtain ⟨leaf, subs, top, rfl, _, _, _, _, h⟩ := C01_chains_linked W r c h hl
      exact ⟨top, by rw [← List.cons_append, List.getLast?_append]; rfl, h⟩
    · obtain ⟨s0, steps, hs, hv, st, hlast, rfl⟩ := produces_path h hl
      intro s hs
      obtain ⟨s', ta, keys, h1, h2, h3, h4, h5⟩ := hv.top
      rw [hlast] at h1; cases h1
      simp only [List.mem_cons, List.mem_append, List.mem_map, List.not_mem_nil, or_false] at hs
      rcases hs with rfl | ⟨a, ha, rfl⟩ | rfl
      · cases hst : steps with
        | nil => exact absurd hst (ValidPath.ne_nil hv)
        | cons a rest => exact ⟨_, hv.leaf_signed a (by simp [hst])⟩
      · obtain ⟨k, hk⟩ := List.mem_iff_getElem?.mp ha
        cases hn : steps[k+1]? with
        | some next => exact ⟨_, (hv.mid_signed k a next hk hn).2⟩
        | none =>
          have hkl := (List.getElem?_eq_some_iff.mp hk).1
          have hnl : steps.length ≤ k + 1 := by simpa using hn
          have hkk : k = steps.length - 1 := by omega
          rw [List.getLast?_eq_getElem?, ← hkk, hk] at hlast
          cases hlast
          exact ⟨keys, h5⟩
      · exact ⟨keys, h4⟩
  · right
    obtain ⟨fuel, cs, h1, hc⟩ := produces_noMeta h
    rcases chainsNoMeta_cases h1 with ⟨_, rfl⟩ | ⟨s0, T, _, hs, _, hT, rfl⟩
    · simp at hc
    · have hiss : (restrictTypes r.types s0).iss = s0.iss := by unfold restrictTypes; split <;> rfl
      have hhints : (restrictTypes r.types s0).hints = s0.hints := by unfold restrictTypes; split <;> rfl
      by_cases hd : s0.iss ∈ anchorIDs r.anchors ∨ s0.hints = []
      · rw [root_degenerate hT rfl (by simpa [rootPending, hiss, hhints] using hd)] at hc
        refine ⟨s0, hs, by simpa [rootPending] using hc, ?_⟩
        rcases hd with hd | hd
        · left; simpa [anchorIDs] using hd
        · exact .inr hd
      · exfalso
        rw [root_chains hT rfl (by simp only [rootPending, hiss]; exact fun h => hd (.inl h))
          (by simp only [rootPending, hhints]; exact fun h => hd (.inr h))] at hc
        obtain ⟨steps, _, rfl⟩ := hc
        simp at hl

example : Produces Ex.W Ex.R Ex.chainI := ex_produces

/-! ## C03 -/

/-- C03: each statement below the top pair verifies under the keys contained in the next statement; the anchor's
configuration and the statement it issued verify under the anchor's authoritative keys. -/
theorem C03_signed_by_superior_keys (W : World) (r : Resolver) (c : Chain) (h : Produces W r c) (hl : 2 ≤ c.length) :
    (∀ k s next, k + 2 < c.length → c[k]? = some s → c[k+1]? = some next → Signed W.sig next.jwks s) ∧
    (∃ pre s top ta keys, c = pre ++ [s, top] ∧ FirstAnchor r.anchors top.iss ta ∧ AnchorKeys ta top keys ∧
      Signed W.sig keys s ∧ Signed W.sig keys top) := by
  obtain ⟨s0, steps, hs, hv, hc⟩ := produces_path h hl
  obtain ⟨hlen, h0, hup, hdown, _⟩ := chain_get hc
  constructor
  · intro k s next hk hks hkn
    obtain ⟨sn, hsn, rfl⟩ := hdown k next hk hkn
    cases k with
    | zero => rw [h0] at hks; cases hks; exact hv.leaf_signed sn hsn
    | succ k =>
      obtain ⟨sk, hsk, rfl⟩ := hdown k s (by omega) hks
      exact (hv.mid_signed k sk sn hsk hsn).2
  · obtain ⟨st, ta, keys, h1, h2, h3, h4, h5⟩ := hv.top
    obtain ⟨st', h1', rfl⟩ := hc
    rw [h1] at h1'; cases h1'
    obtain ⟨ys, rfl⟩ := List.getLast?_eq_some_iff.mp h1
    refine ⟨restrictTypes r.types s0 :: ys.map Step.sub, st.sub, st.ec, ta, keys, by simp, h2, h3, h5, h4⟩

example : Produces Ex.W Ex.R Ex.chainI ∧ 2 ≤ Ex.chainI.length := ⟨ex_produces, by decide⟩

/-! ## C04 -/

/-- C04: when the first anchor configured for the top entity has keys `ks`, the top two statements verify under `ks`,
whatever the served configuration contains. -/
theorem C04_pinned_keys_authoritative (W : World) (r : Resolver) (c : Chain) (h : Produces W r c) (hl : 2 ≤ c.length)
    (pre : Chain) (s top : Stmt) (hc : c = pre ++ [s, top]) (ta : Anchor) (hta : FirstAnchor r.anchors top.iss ta) :
    (∀ ks, ta.jwks = some ks → Signed W.sig (some ks) s ∧ Signed W.sig (some ks) top) ∧
    (ta.jwks = none → Signed W.sig top.jwks s ∧ Signed W.sig top.jwks top) := by
  obtain ⟨pre', s', top', ta', keys, hc', hfa, hk, h1, h2⟩ := (C03_signed_by_superior_keys W r c h hl).2
  have heq : s' = s ∧ top' = top := by
    have : pre ++ [s, top] = pre' ++ [s', top'] := by rw [← hc, hc']
    have h1 := congrArg List.reverse this
    simp at h1
    exact ⟨h1.2.1.symm, h1.1.symm⟩
  obtain ⟨rfl, rfl⟩ := heq
  have htt : ta' = ta := by
    have h1 := (find_firstAnchor _ _ _).mpr hfa
    have h2 := (find_firstAnchor _ _ _).mpr hta
    rw [h1] at h2; exact Option.some.inj h2
  subst htt
  rcases hk with ⟨ks, hj, rfl⟩ | ⟨hj, rfl⟩
  · refine ⟨?_, by simp [hj]⟩
    intro ks' hk'
    rw [hj] at hk'; cases hk'
    exact ⟨h1, h2⟩
  · exact ⟨by simp [hj], fun _ => ⟨h1, h2⟩⟩

example : Produces Ex.W Ex.R Ex.chainI ∧ 2 ≤ Ex.chainI.length ∧
    (∃ pre s, Ex.chainI = pre ++ [s, Ex.tEC]) ∧ FirstAnchor Ex.R.anchors "t" ⟨"t", some [3]⟩ :=
  ⟨ex_produces, by decide, ⟨[_, _], _, rfl⟩, [], [], rfl, rfl, by simp⟩

/-! ## C05 -/

/-- a leaf configuration that expired at time 10; the clock always reads 50 -/
def ex05 : Stmt := { Ex.leafEC with exp := 10 }

/-- C05 is false: the starting entity's configuration is never checked for time validity. -/
theorem C05_time_valid_refuted :
    ¬ ∀ (W : World) (r : Resolver) (c : Chain), Produces W r c →
      ∀ s ∈ c, ∃ now, Reading W now ∧ InWindow now s := by
  intro h
  have hp : Produces { Ex.W with start := fun _ => some ex05 } Ex.R (ex05 :: Ex.chainI.tail) :=
    ⟨5, [ex05 :: Ex.chainI.tail, ex05 :: Ex.chainJ.tail], .inl rfl, by simp⟩
  obtain ⟨now, ⟨p, hp⟩, hw⟩ := h _ _ _ hp ex05 (by simp)
  have hn : now = 50 := by rcases hp with h | h <;> exact h
  subst hn
  exact absurd hw (by unfold InWindow; decide)

/-- C05 for every statement but the leaf's configuration. -/
theorem C05_time_valid_partial (W : World) (r : Resolver) (c : Chain) (h : Produces W r c)
    (k : Nat) (s : Stmt) (hs : c[k+1]? = some s) : ∃ now, Reading W now ∧ InWindow now s := by
  have hl : 2 ≤ c.length := by have := (List.getElem?_eq_some_iff.mp hs).1; omega
  obtain ⟨s0, steps, _, hv, hc⟩ := produces_path h hl
  obtain ⟨hlen, h0, hup, hdown, st, hlast, htop⟩ := chain_get hc
  by_cases hk : k + 2 < c.length
  · obtain ⟨st, hst, rfl⟩ := hdown k s hk hs
    obtain ⟨e, ok, _⟩ := step_ok hv k st hst
    exact ⟨_, ⟨_, .inr rfl⟩, ok.sub_time⟩
  · have hk2 : k < c.length - 1 := by have := (List.getElem?_eq_some_iff.mp hs).1; omega
    have : k = steps.length := by omega
    subst this
    rw [htop] at hs; cases hs
    obtain ⟨j, hj⟩ := List.mem_iff_getElem?.mp (List.mem_of_getLast? hlast)
    obtain ⟨e, ok, _⟩ := step_ok hv j st hj
    exact ⟨_, ⟨_, .inl rfl⟩, ok.ec_time⟩

example : Produces Ex.W Ex.R Ex.chainI ∧ ∃ s, Ex.chainI[2+1]? = some s := ⟨ex_produces, _, rfl⟩

/-! ## C06, C07, C08 -/

/-- C06: the statement at index `k+1` has `k` intermediates between its issuer and the leaf (the issuers of the statements
at indices 1 … k); a `max_path_length` it carries is at least that. -/
theorem C06_max_path_length (W : World) (r : Resolver) (c : Chain) (h : Produces W r c)
    (k : Nat) (s : Stmt) (hk : k + 2 < c.length) (hs : c[k+1]? = some s)
    (cs : Constraints) (hcs : s.constraints = some cs) (n : Int) (hn : cs.maxPath = some n) : (k : Int) ≤ n := by
  obtain ⟨s0, steps, _, hv, hc⟩ := produces_path h (by omega)
  obtain ⟨hlen, h0, hup, hdown, _⟩ := chain_get hc
  obtain ⟨st, hst, rfl⟩ := hdown k s hk hs
  obtain ⟨e, ok, _⟩ := step_ok hv k st hst
  exact (ok.constraints cs hcs).1 n hn

example : Produces Ex.W Ex.R Ex.chainI ∧ 1 + 2 < Ex.chainI.length ∧
    ∃ s, Ex.chainI[1+1]? = some s ∧ s.constraints = some Ex.cons ∧ Ex.cons.maxPath = some 1 :=
  ⟨ex_produces, by decide, _, rfl, rfl, rfl⟩

/-- a hostile leaf: its configuration is issued by `l` but claims to be about `x`, whose host is allowed -/
def ex07 : Stmt := { Ex.leafEC with sub := "x" }
/-- host names in which `l` has the excluded host and `x` an allowed one -/
def ex07host : ID → Option String
  | "l" => some "bad.org"
  | "x" => some "x.org"
  | i => Ex.hostOf i

/-- C07 is false: the naming constraints are checked against the *subject* the leaf configuration claims, which nothing ties
to the entity the superior's statement is about. -/
theorem C07_naming_refuted :
    ¬ ∀ (W : World) (r : Resolver) (c : Chain), Produces W r c →
      ∀ (k : Nat) (s : Stmt), k + 2 < c.length → c[k+1]? = some s → ∀ cs, s.constraints = some cs →
        ∀ (j : Nat) (b : Stmt), j ≤ k → c[j+1]? = some b → NamingOk W.host cs b.sub := by
  intro h
  have hp : Produces { Ex.W with start := fun _ => some ex07, host := ex07host } Ex.R (ex07 :: Ex.chainI.tail) :=
    ⟨5, [ex07 :: Ex.chainI.tail, ex07 :: Ex.chainJ.tail], .inl rfl, by simp⟩
  have := h _ _ _ hp 1 _ (by decide) rfl Ex.cons rfl 0 _ (by decide) rfl
  obtain ⟨h1, _⟩ := this ⟨some [".org"], ["bad.org"]⟩ rfl
  apply h1 "bad.org" (by simp)
  refine ⟨"bad.org", rfl, .inr ⟨?_, rfl⟩⟩
  rintro ⟨rest, hr⟩
  have h2 : "bad.org".toList = ['b', 'a', 'd', '.', 'o', 'r', 'g'] := by decide
  rw [h2] at hr
  exact absurd (List.cons.inj hr).1 (by decide)

/-- C07: the naming constraints of the statement at index `k+1` hold for the subject named by the leaf configuration and for
every intermediate below its issuer; if the leaf configuration is self-issued, for every entity that a statement at or below
that index is about. Missing: a leaf configuration whose `sub` differs from its `iss`. -/
theorem C07_naming_partial (W : World) (r : Resolver) (c : Chain) (h : Produces W r c)
    (k : Nat) (s : Stmt) (hk : k + 2 < c.length) (hs : c[k+1]? = some s)
    (cs : Constraints) (hcs : s.constraints = some cs) :
    (∀ leaf, c[0]? = some leaf → NamingOk W.host cs leaf.sub) ∧
    (∀ (j : Nat) (b : Stmt), j < k → c[j+1]? = some b → NamingOk W.host cs b.iss) ∧
    (∀ leaf, c[0]? = some leaf → leaf.sub = leaf.iss →
      ∀ (j : Nat) (b : Stmt), j ≤ k → c[j+1]? = some b → NamingOk W.host cs b.sub) := by
  have hl : 2 ≤ c.length := by omega
  have hlink := C01_chains_linked W r c h hl
  obtain ⟨s0, steps, _, hv, hc⟩ := produces_path h hl
  obtain ⟨hlen, h0, hup, hdown, _⟩ := chain_get hc
  obtain ⟨st, hst, rfl⟩ := hdown k s hk hs
  obtain ⟨e, ok, _⟩ := step_ok hv k st hst
  have hok := (ok.constraints cs hcs).2.1
  have hleaf : ∀ leaf, c[0]? = some leaf → NamingOk W.host cs leaf.sub := by
    intro leaf hlf
    rw [h0] at hlf; cases hlf
    exact hok _ (by simp [idsBelow])
  have hmid : ∀ (j : Nat) (b : Stmt), j < k → c[j+1]? = some b → NamingOk W.host cs b.iss := by
    intro j b hj hb
    obtain ⟨sj, hsj, rfl⟩ := hdown j b (by omega) hb
    obtain ⟨_, okj, _⟩ := step_ok hv j sj hsj
    rw [okj.sub_iss]
    apply hok
    simp only [idsBelow, List.mem_cons, List.mem_map]
    right
    exact ⟨sj, List.mem_of_getElem? (by rw [List.getElem?_take_of_lt hj]; exact hsj), rfl⟩
  refine ⟨hleaf, hmid, ?_⟩
  intro leaf hlf hself j b hj hb
  obtain ⟨sj, hsj, rfl⟩ := hdown j b (by omega) hb
  obtain ⟨ej, okj, he0, he1⟩ := step_ok hv j sj hsj
  rw [okj.sub_sub]
  cases j with
  | zero =>
    rw [he0 rfl]
    rw [h0] at hlf; cases hlf
    rw [← hself]
    exact hleaf _ h0
  | succ i =>
    obtain ⟨si, hsi, rfl⟩ := he1 i rfl
    have := hmid i si.sub (by omega) (hup i si hsi)
    obtain ⟨_, oki, _⟩ := step_ok hv i si hsi
    rwa [oki.sub_iss] at this

example : Produces Ex.W Ex.R Ex.chainI ∧ 1 + 2 < Ex.chainI.length ∧
    (∃ s, Ex.chainI[1+1]? = some s ∧ s.constraints = some Ex.cons) ∧
    (∃ leaf, Ex.chainI[0]? = some leaf ∧ leaf.sub = leaf.iss) :=
  ⟨ex_produces, by decide, ⟨_, rfl, rfl⟩, _, rfl, rfl⟩

/-- C08 is false: entity types the library does not know are not counted, so a leaf declaring type `wallet` passes
`allowed_entity_types: ["openid_relying_party"]`. -/
theorem C08_entity_types_refuted :
    ¬ ∀ (W : World) (r : Resolver) (c : Chain), Produces W r c →
      ∀ (k : Nat) (s : Stmt), k + 2 < c.length → c[k+1]? = some s → ∀ cs, s.constraints = some cs →
        ∀ leaf, c[0]? = some leaf → ∀ ty, Declares leaf ty → TypeOk cs ty := by
  intro h
  have := h _ _ _ ex_produces 1 _ (by decide) rfl Ex.cons rfl _ rfl "wallet"
    (.inr ⟨_, _, .str "x", rfl, rfl, by simp⟩) ["openid_relying_party"] rfl
  revert this
  decide

/-- C08 for the six entity types the library knows: those declared by the leaf of the chain and by the configuration of
every intermediate below the issuer of the statement at index `k+1` are allowed. `ecs` are the configurations the
intermediates served in this resolution. Missing: entity types unknown to the library. -/
theorem C08_entity_types_partial (W : World) (r : Resolver) (c : Chain) (h : Produces W r c) (hl : 2 ≤ c.length) :
    ∃ ecs : List Stmt, ecs.length + 2 = c.length ∧
      (∀ j ec b, ecs[j]? = some ec → c[j+1]? = some b →
        ec.iss = b.iss ∧ ec.sub = b.iss ∧ ∃ p, W.ec p b.iss = some ec) ∧
      ∀ (k : Nat) (s : Stmt), k + 2 < c.length → c[k+1]? = some s → ∀ cs, s.constraints = some cs →
        ∀ ty, ((∃ leaf, c[0]? = some leaf ∧ DeclaresKnown leaf ty) ∨
               (∃ j ec, j < k ∧ ecs[j]? = some ec ∧ DeclaresKnown ec ty)) → TypeOk cs ty := by
  obtain ⟨s0, steps, _, hv, hc⟩ := produces_path h hl
  obtain ⟨hlen, h0, hup, hdown, _⟩ := chain_get hc
  have hmem : ∀ s ty, DeclaresKnown s ty → ty ∈ s.entityTypes := by
    rintro s ty ⟨m, t, hm, rfl, em, he⟩
    simp only [Stmt.entityTypes, hm, Metadata.entityTypes, List.mem_map, List.mem_filter]
    exact ⟨t, ⟨by cases t <;> simp [EType.all], by simp [he]⟩, rfl⟩
  refine ⟨steps.map Step.ec, by simp [hlen], ?_, ?_⟩
  · intro j ec b hj hb
    simp only [List.getElem?_map, Option.map_eq_some_iff] at hj
    obtain ⟨sj, hsj, rfl⟩ := hj
    rw [hup j sj hsj] at hb; cases hb
    obtain ⟨_, ok, _⟩ := step_ok hv j sj hsj
    refine ⟨ok.sub_iss.symm, by rw [ok.self_issued, ok.sub_iss], posAt steps (j+1), ?_⟩
    rw [ok.sub_iss]; exact ok.served
  · intro k s hk hs cs hcs ty hty
    obtain ⟨st, hst, rfl⟩ := hdown k s hk hs
    obtain ⟨e, ok, _⟩ := step_ok hv k st hst
    apply (ok.constraints cs hcs).2.2
    simp only [typesBelow, List.mem_append, List.mem_flatten, List.mem_map]
    rcases hty with ⟨leaf, hlf, hd⟩ | ⟨j, ec, hj, hec, hd⟩
    · rw [h0] at hlf; cases hlf
      exact .inl (hmem _ _ hd)
    · simp only [List.getElem?_map, Option.map_eq_some_iff] at hec
      obtain ⟨sj, hsj, rfl⟩ := hec
      exact .inr ⟨_, ⟨sj, List.mem_of_getElem? (by rw [List.getElem?_take_of_lt hj]; exact hsj), rfl⟩, hmem _ _ hd⟩

example : Produces Ex.W Ex.R Ex.chainI ∧ 2 ≤ Ex.chainI.length ∧ DeclaresKnown Ex.leafEC "openid_relying_party" :=
  ⟨ex_produces, by decide, _, .rp, rfl, rfl, _, rfl⟩

/-! ## C09, C60 -/

/-- C09 (termination): if all authority hints served lie in a finite list `U`, the tree construction ends, with the same
result for every sufficiently large recursion bound, and no path of the tree holds more than `|U| + 1` entities. -/
theorem C09_terminates (W : World) (A : List Anchor) (leaf : Stmt) (U : List ID)
    (hU : ∀ p id s, W.ec p id = some s → ∀ h ∈ s.hints, h ∈ U) (hleaf : ∀ h ∈ leaf.hints, h ∈ U) :
    ∃ T, (∀ fuel, U.length + 1 ≤ fuel → resolve W A fuel [] (rootPending leaf) = some T) ∧
      T.height ≤ U.length + 1 := by
  have hlen : (fresh U (rootPending leaf).ids).length ≤ U.length := by
    unfold fresh; exact List.length_filter_le _ _
  obtain ⟨T, h1, h2⟩ := resolve_terminates W A U hU ((fresh U (rootPending leaf).ids).length + 1) []
    (rootPending leaf) hleaf (by omega)
  exact ⟨T, fun fuel hf => resolve_mono_le h1 (by omega), by omega⟩

/-- The whole call ends: on every finite federation some recursion bound suffices. -/
theorem C09_resolution_terminates (W : World) (r : Resolver) (U : List ID)
    (hU : ∀ p id s, W.ec p id = some s → ∀ h ∈ s.hints, h ∈ U)
    (hs : ∀ id s, W.start id = some s → ∀ h ∈ s.hints, h ∈ U) :
    ∀ fuel, U.length + 1 ≤ fuel → r.chainsNoMeta W fuel ≠ .ok none := by
  intro fuel hf h
  unfold Resolver.chainsNoMeta Resolver.resolveTree at h
  split at h
  · simp [bind, Except.bind] at h
  · split at h
    · simp [bind, Except.bind] at h
    · rename_i s0 hs0
      split at h
      · simp [bind, Except.bind] at h
      · obtain ⟨T, hT, _⟩ := C09_terminates W r.anchors (restrictTypes r.types s0) U hU
          (fun x hx => hs _ _ hs0 x (by unfold restrictTypes at hx; split at hx <;> exact hx))
        rw [hT fuel hf] at h
        simp [bind, Except.bind] at h

theorem ex_hints : ∀ p id s, Ex.W.ec p id = some s → ∀ h ∈ s.hints, h ∈ ["i", "j", "t", "l"] := by
  intro p id s h x hx
  simp only [Ex.W, Ex.ecOf] at h
  split at h <;> cases h <;> simp [Ex.leafEC, Ex.iEC, Ex.jEC, Ex.tEC, Ex.mk] at hx ⊢ <;>
    rcases hx with rfl | rfl <;> simp

example : (∀ p id s, Ex.W.ec p id = some s → ∀ h ∈ s.hints, h ∈ ["i", "j", "t", "l"]) ∧
    (∀ id s, Ex.W.start id = some s → ∀ h ∈ s.hints, h ∈ ["i", "j", "t", "l"]) :=
  ⟨ex_hints, fun id s h => ex_hints [] id s h⟩

theorem resolve_entity {W : World} {A : List Anchor} {fuel : Nat} {p : Pos} {t : Pending} {e s : Option Stmt} {n : Bool} {as : List Tree} {v : Bool} {x : Time} {d : Nat}
    {ty : List String} {ids : List ID} (h : resolve W A fuel p t = some (.node e s n as v x d ty ids)) : e = some t.entity := by
  cases fuel with
  | zero => simp [resolve] at h
  | succ f =>
    unfold resolve at h
    simp only at h
    split at h
    · cases h; rfl
    · simp only [Option.bind_eq_bind, Option.bind_eq_some_iff] at h
      obtain ⟨_, _, h⟩ := h
      cases h; rfl

theorem resolve_loop_free (W : World) (A : List Anchor) : ∀ (fuel : Nat) (p : Pos) (t : Pending) (T : Tree), resolve W A fuel p t = some T →
    ∀ l, Spec.PassesIDs T l → l.Nodup ∧ ∀ i ∈ l, i ∉ t.ids := by
  intro fuel
  induction fuel with
  | zero => intro p t T h; simp [resolve] at h
  | succ f ih =>
    intro p t T h l hl
    cases hl with
    | here => exact ⟨by simp, by simp⟩
    | up e s n as v x d ty ids a s' n' as' v' x' d' ty' ids' l hmem hl =>
      unfold resolve at h
      simp only at h
      split at h
      · cases h; cases hmem
      · simp only [Option.bind_eq_bind, Option.bind_eq_some_iff] at h
        obtain ⟨⟨ts, e'⟩, hx, h⟩ := h
        cases h
        obtain ⟨hlen, hspec⟩ := resolveHints_spec W _ t p _ _ _ _ _ hx
        obtain ⟨j, hj⟩ := List.mem_iff_getElem?.mp hmem
        have hjl : j < t.entity.hints.length := by
          rw [← hlen]; exact (List.getElem?_eq_some_iff.mp hj).1
        obtain ⟨hz, hg⟩ := hspec j t.entity.hints[j] (by simp [hjl])
        cases hh : hintStmts W t (p ++ [0+j]) t.entity.hints[j] with
        | none => have := hz hh; rw [hj] at this; simp [Tree.zero] at this
        | some es =>
          obtain ⟨ec, sb⟩ := es
          obtain ⟨tt, h1, h2⟩ := hg ec sb hh
          rw [hj] at h1
          cases h1
          obtain ⟨g1, g2⟩ := ih _ _ _ h2 l hl
          have he := resolve_entity h2
          cases he
          have hi := (hintStmts_iff.mp hh)
          have hiss : ec.iss = t.entity.hints[j] := hi.2.2.1
          refine ⟨List.nodup_cons.mpr ⟨fun hm => g2 _ hm ?_, g1⟩, ?_⟩
          · show ec.iss ∈ t.ids ++ [t.entity.hints[j]]
            simp [hiss]
          · intro i him
            rcases List.mem_cons.mp him with rfl | him
            · exact fun hc => hi.1 (hiss ▸ hc)
            · exact fun hc => g2 i him (List.mem_append_left _ hc)

/-- C09 (loop freedom of the tree): on no path of the tree the library builds an entity id occurs twice, be there a chain or not. -/
theorem C09_tree_loop_free (W : World) (A : List Anchor) (leaf : Stmt) (fuel : Nat) (T : Tree) (h : resolve W A fuel [] (rootPending leaf) = some T)
    (l : List ID) (hl : Spec.PassesIDs T l) : (leaf.sub :: l).Nodup := by
  obtain ⟨h1, h2⟩ := resolve_loop_free W A fuel [] _ T h l hl
  exact List.nodup_cons.mpr ⟨fun hm => h2 _ hm (by simp [rootPending]), h1⟩

example : ∃ T, resolve Ex.W Ex.R.anchors 9 [] (rootPending Ex.leafEC) = some T ∧ Spec.PassesIDs T ["i", "t"] := by
  refine ⟨_, rfl, ?_⟩
  refine .up _ _ _ _ _ _ _ _ _ Ex.iEC _ _ _ _ _ _ _ _ _ (List.mem_cons_self ..) ?_
  refine .up _ _ _ _ _ _ _ _ _ Ex.tEC _ _ _ _ _ _ _ _ _ (List.mem_cons_self ..) ?_
  exact .here _

/-- C09 (loop freedom): the subject of the leaf configuration and the issuers of the subordinate statements of a returned
chain are pairwise distinct. -/
theorem C09_loop_free (W : World) (r : Resolver) (c : Chain) (h : Produces W r c) (leaf : Stmt) (subs : Chain) (top : Stmt)
    (hc : c = leaf :: (subs ++ [top])) : (leaf.sub :: subs.map Stmt.iss).Nodup := by
  obtain ⟨s0, steps, _, hv, st, hst, hceq⟩ := produces_path h (by simp [hc])
  rw [hc] at hceq
  obtain ⟨rfl, h2⟩ := List.cons.inj hceq
  have h3 : subs = steps.map Step.sub := (List.append_inj' h2 rfl).1
  subst h3
  have key : ∀ k, k ≤ steps.length → (idsBelow (restrictTypes r.types s0) steps k).Nodup := by
    intro k
    induction k with
    | zero => intro _; simp [idsBelow]
    | succ k ih =>
      intro hk
      have hk' : k < steps.length := by omega
      obtain ⟨_, ok, _⟩ := step_ok hv k steps[k] (by simp [hk'])
      have := ok.not_visited
      have ih := ih (by omega)
      simp only [idsBelow, List.take_succ_eq_append_getElem hk', List.map_append, List.map_cons, List.map_nil] at *
      rw [← List.cons_append, List.nodup_append]
      refine ⟨ih, by simp, ?_⟩
      intro a ha b hb
      simp only [List.mem_singleton] at hb
      subst hb
      intro hab; subst hab
      exact this ha
  have hfin := key steps.length (Nat.le_refl _)
  simp only [idsBelow, List.take_length] at hfin
  have : (steps.map Step.sub).map Stmt.iss = steps.map (fun s => s.ec.iss) := by
    rw [List.map_map]
    apply List.map_congr_left
    intro s hs
    obtain ⟨k, hk⟩ := List.mem_iff_getElem?.mp hs
    obtain ⟨_, ok, _⟩ := step_ok hv k s hk
    exact ok.sub_iss
  rw [this]
  exact hfin

example : Produces Ex.W Ex.R Ex.chainI ∧ ∃ leaf subs top, Ex.chainI = leaf :: (subs ++ [top]) :=
  ⟨ex_produces, _, [_, _], _, rfl⟩

/-- A hostile server: it serves a configuration for every id, each naming a fresh authority, and a matching statement. -/
def evil : World where
  start := fun id => some { Ex.mk id id none 0 with hints := [id ++ "x"], metadata := some (Ex.fedMeta "f") }
  ec := fun _ id => some { Ex.mk id id none 0 with hints := [id ++ "x"], metadata := some (Ex.fedMeta "f") }
  fetch := fun _ _ sub iss => some (Ex.mk iss sub none 0)
  nowEC := fun _ => 50
  nowSub := fun _ => 50
  host := fun _ => none
  sig := fun _ _ => false

/-- C60 is false: resolution effort is not bounded irrespective of what is served. Against the hostile server the tree
construction is unfinished at every recursion bound. -/
theorem C60_bounded_effort_refuted :
    ¬ ∀ (W : World) (r : Resolver), ∃ fuel, r.chainsNoMeta W fuel ≠ .ok none := by
  intro h
  obtain ⟨fuel, hf⟩ := h evil ⟨[], "e", []⟩
  apply hf
  have key : ∀ fuel p (t : Pending), t.entity.hints = [t.entity.iss ++ "x"] →
      (∀ i ∈ t.ids, i.length ≤ t.entity.iss.length) → resolve evil [] fuel p t = none := by
    intro fuel
    induction fuel with
    | zero => intros; rfl
    | succ f ih =>
      intro p t hh hi
      unfold resolve
      simp only [anchorIDs, List.map_nil, List.contains_nil, Bool.false_eq_true, if_false, hh, resolveHints]
      have hfresh : (t.entity.iss ++ "x") ∉ t.ids := by
        intro hm
        have := hi _ hm
        rw [String.length_append, show "x".length = 1 from rfl] at this
        omega
      have hs : hintStmts evil t (p ++ [0]) (t.entity.iss ++ "x") =
          some ({ Ex.mk (t.entity.iss ++ "x") (t.entity.iss ++ "x") none 0 with
                  hints := [t.entity.iss ++ "x" ++ "x"], metadata := some (Ex.fedMeta "f") },
                Ex.mk (t.entity.iss ++ "x") t.entity.iss none 0) := by
        rw [hintStmts_iff]
        refine ⟨hfresh, rfl, rfl, rfl, ?_, ?_, rfl, rfl, rfl, ?_, rfl⟩
        · rfl
        · exact show "f" ≠ "" by decide
        · rfl
      rw [hs]
      simp only
      rw [ih]
      · rfl
      · rfl
      · intro i hm
        simp only [childOf, List.mem_append, List.mem_singleton] at hm ⊢
        rcases hm with hm | rfl
        · have := hi i hm
          simp [Ex.mk]; omega
        · simp [Ex.mk]
  unfold Resolver.chainsNoMeta Resolver.resolveTree
  simp only [evil]
  rw [if_neg (by decide)]
  simp only [Option.isNone_some, Bool.false_eq_true, if_false]
  have := key fuel [] (rootPending (restrictTypes [] { Ex.mk "e" "e" none 0 with
    hints := ["e" ++ "x"], metadata := some (Ex.fedMeta "f") })) rfl (by simp [rootPending, restrictTypes, Ex.mk])
  simp only [evil] at this
  rw [this]
  rfl

/-- C60, what does hold: the effort is bounded when the ids named anywhere are drawn from a finite set (C09). -/
theorem C60_bounded_effort_partial (W : World) (r : Resolver) (U : List ID)
    (hU : ∀ p id s, W.ec p id = some s → ∀ h ∈ s.hints, h ∈ U)
    (hs : ∀ id s, W.start id = some s → ∀ h ∈ s.hints, h ∈ U) :
    ∃ fuel, r.chainsNoMeta W fuel ≠ .ok none :=
  ⟨U.length + 1, C09_resolution_terminates W r U hU hs _ (Nat.le_refl _)⟩

/-! ## C10 -/

/-- C10: a finished run returns, among chains of two or more statements, exactly the chains of the valid paths from the
starting configuration. -/
theorem C10_sound_and_complete (W : World) (r : Resolver) (fuel : Nat) (cs : List Chain)
    (h : r.chainsNoMeta W fuel = .ok (some cs)) (hst : r.start ≠ "") (s0 : Stmt) (hs : W.start r.start = some s0)
    (c : Chain) (hl : 2 ≤ c.length) :
    c ∈ cs ↔ ∃ steps, ValidPath W r.anchors (restrictTypes r.types s0) steps ∧
      IsChainOf (restrictTypes r.types s0) steps c := by
  rcases chainsNoMeta_cases h with ⟨h1 | h1, _⟩ | ⟨s1, T, _, hs1, _, hT, rfl⟩
  · exact absurd h1 hst
  · rw [hs] at h1; cases h1
  · rw [hs] at hs1; cases hs1
    exact mem_chains_iff hT c hl

/-- C10 for `ResolveToValidChains`: exactly the chains of valid paths whose metadata resolves. -/
theorem C10_valid_sound_and_complete (W : World) (r : Resolver) (fuel : Nat) (cs : List Chain)
    (h : r.validChains W fuel = .ok (some cs)) (hst : r.start ≠ "") (s0 : Stmt) (hs : W.start r.start = some s0)
    (c : Chain) (hl : 2 ≤ c.length) :
    c ∈ cs ↔ (∃ steps, ValidPath W r.anchors (restrictTypes r.types s0) steps ∧
      IsChainOf (restrictTypes r.types s0) steps c) ∧ ∃ m, chainMetadata c = .ok m := by
  obtain ⟨cs0, h1, h2⟩ := validChains_eq h
  rw [filterValidMetadata_mem _ _ h2, C10_sound_and_complete W r fuel cs0 h1 hst s0 hs c hl]

/-- C10, the "every valid path is found" half without the length restriction. -/
theorem C10_complete (W : World) (r : Resolver) (fuel : Nat) (cs : List Chain)
    (h : r.chainsNoMeta W fuel = .ok (some cs)) (hst : r.start ≠ "") (s0 : Stmt) (hs : W.start r.start = some s0)
    (steps : List Step) (hv : ValidPath W r.anchors (restrictTypes r.types s0) steps)
    (c : Chain) (hc : IsChainOf (restrictTypes r.types s0) steps c) : c ∈ cs := by
  have hl : 2 ≤ c.length := by have := (chain_get hc).1; omega
  exact (C10_sound_and_complete W r fuel cs h hst s0 hs c hl).mpr ⟨steps, hv, hc⟩

example : Ex.R.chainsNoMeta Ex.W 5 = .ok (some [Ex.chainI, Ex.chainJ]) ∧ Ex.R.start ≠ "" ∧
    Ex.W.start Ex.R.start = some Ex.leafEC ∧ 2 ≤ Ex.chainI.length :=
  ⟨Ex.run, by decide, rfl, by decide⟩

example : ∃ steps, ValidPath Ex.W Ex.R.anchors Ex.leafEC steps ∧ IsChainOf Ex.leafEC steps Ex.chainI :=
  (C10_sound_and_complete Ex.W Ex.R 5 _ Ex.run (by decide) Ex.leafEC rfl Ex.chainI (by decide)).mp (by simp)

/-! ## C11 -/

/-- C11 is false: a starting configuration without a metadata claim makes resolution panic. -/
theorem C11_no_panic_refuted :
    ¬ ∀ (W : World) (r : Resolver) (fuel : Nat), r.chainsNoMeta W fuel ≠ .error .panic := by
  intro h
  exact h { Ex.W with start := fun _ => some (Ex.mk "l" "l" none 0) } Ex.R 5 rfl

/-- C11: without metadata verification, resolution panics exactly if the starting configuration has no metadata; authorities
lacking optional claims never cause a panic. -/
theorem C11_no_panic_partial (W : World) (r : Resolver) (fuel : Nat) :
    (∃ o, r.chainsNoMeta W fuel = .ok o) ∨
    (r.start ≠ "" ∧ ∃ s0, W.start r.start = some s0 ∧ s0.metadata = none) := by
  unfold Resolver.chainsNoMeta Resolver.resolveTree
  split
  · left; exact ⟨_, rfl⟩
  · rename_i he
    split
    · left; exact ⟨_, rfl⟩
    · rename_i s0 hs
      split
      · rename_i hm
        exact .inr ⟨by simpa using he, s0, hs, by simpa using hm⟩
      · left; exact ⟨_, rfl⟩

/-! ## C12 -/

/-- C12 is false: the answer for the starting entity is not compared with the id asked for. Asked for `other`, the resolver
returns chains about `l`. -/
theorem C12_about_entity_refuted :
    ¬ ∀ (W : World) (r : Resolver) (c : Chain), Produces W r c →
      ∃ leaf, c[0]? = some leaf ∧ leaf.iss = r.start ∧ leaf.sub = r.start := by
  intro h
  have hp : Produces { Ex.W with start := fun _ => some Ex.leafEC } { Ex.R with start := "other" } Ex.chainI :=
    ⟨5, [Ex.chainI, Ex.chainJ], .inl rfl, by simp⟩
  obtain ⟨leaf, h0, h1, _⟩ := h _ _ _ hp
  cases h0
  exact absurd h1 (by decide)

/-- C12, what holds: the first statement is what the starting entity's URL served, restricted to the requested types; so the
claim holds if that server answers with a self-issued configuration of the id asked for. Missing: the check of the answer. -/
theorem C12_about_entity_partial (W : World) (r : Resolver) (c : Chain) (h : Produces W r c) :
    ∃ s0 leaf, W.start r.start = some s0 ∧ c[0]? = some leaf ∧ leaf = { s0 with metadata := leaf.metadata } ∧
      (s0.iss = r.start ∧ s0.sub = r.start → leaf.iss = r.start ∧ leaf.sub = r.start) := by
  have : ∃ s0, W.start r.start = some s0 ∧ c[0]? = some (restrictTypes r.types s0) := by
    rcases C02_every_chain_anchored_partial W r c h with ⟨hl, _⟩ | ⟨s0, hs, rfl, _⟩
    · obtain ⟨s0, steps, hs, hv, hc⟩ := produces_path h hl
      exact ⟨s0, hs, (chain_get hc).2.1⟩
    · exact ⟨s0, hs, rfl⟩
  obtain ⟨s0, hs, h0⟩ := this
  refine ⟨s0, _, hs, h0, ?_, ?_⟩
  · unfold restrictTypes; split <;> rfl
  · unfold restrictTypes; split <;> exact id

/-! ## C13 -/

/-- Two worlds differ only in what the entities in `Bad` serve. -/
def SameExcept (Bad : ID → Prop) (W W' : World) : Prop :=
  (∀ id, W.start id = W'.start id) ∧
  (∀ p id, ¬ Bad id → W.ec p id = W'.ec p id) ∧
  (∀ p ep sub iss, ¬ Bad iss → W.fetch p ep sub iss = W'.fetch p ep sub iss) ∧
  W.nowEC = W'.nowEC ∧ W.nowSub = W'.nowSub ∧ W.host = W'.host ∧ W.sig = W'.sig

theorem SameExcept.symm {Bad W W'} (h : SameExcept Bad W W') : SameExcept Bad W' W := by
  obtain ⟨h1, h2, h3, h4, h5, h6, h7⟩ := h
  exact ⟨fun i => (h1 i).symm, fun p i hb => (h2 p i hb).symm, fun p e s i hb => (h3 p e s i hb).symm,
    h4.symm, h5.symm, h6.symm, h7.symm⟩

theorem validPath_transfer {Bad W W' A leaf steps} (h : SameExcept Bad W W')
    (hb : ∀ s ∈ steps, ¬ Bad s.ec.iss) (hv : ValidPath W A leaf steps) : ValidPath W' A leaf steps := by
  obtain ⟨_, h2, h3, h4, h5, h6, h7⟩ := h
  refine ⟨?_, ?_, ?_, ?_⟩
  · intro k e s he hs
    have ok := hv.steps_ok k e s he hs
    have hbs := hb s (List.mem_of_getElem? hs)
    exact { ok with
      served := by rw [← h2 _ _ hbs]; exact ok.served
      ec_time := by rw [← h4]; exact ok.ec_time
      fetched := by rw [← h3 _ _ _ _ hbs]; exact ok.fetched
      sub_time := by rw [← h5]; exact ok.sub_time
      constraints := by rw [← h6]; exact ok.constraints }
  · rw [← h7]; exact hv.leaf_signed
  · rw [← h7]; exact hv.mid_signed
  · rw [← h7]; exact hv.top

/-- C13: replacing everything the authorities in `Bad` answer, at any level, leaves the set of chains that do not go through
them unchanged. -/
theorem C13_fault_isolation (W W' : World) (r : Resolver) (Bad : ID → Prop) (hW : SameExcept Bad W W')
    (fuel fuel' : Nat) (cs cs' : List Chain)
    (h : r.chainsNoMeta W fuel = .ok (some cs)) (h' : r.chainsNoMeta W' fuel' = .ok (some cs'))
    (c : Chain) (hc : ∀ s ∈ c.tail, ¬ Bad s.iss) : c ∈ cs ↔ c ∈ cs' := by
  have main : ∀ (W W' : World) (fuel fuel' : Nat) (cs cs' : List Chain), SameExcept Bad W W' →
      r.chainsNoMeta W fuel = .ok (some cs) → r.chainsNoMeta W' fuel' = .ok (some cs') → c ∈ cs → c ∈ cs' := by
    intro W W' fuel fuel' cs cs' hW h h' hm
    rcases chainsNoMeta_cases h with ⟨_, rfl⟩ | ⟨s0, T, hst, hs0, _, hT, rfl⟩
    · simp at hm
    have hs0' : W'.start r.start = some s0 := by rw [← hW.1]; exact hs0
    rcases chainsNoMeta_cases h' with ⟨h1 | h1, rfl⟩ | ⟨s1, T', _, hs1, _, hT', rfl⟩
    · exact absurd h1 hst
    · rw [hs0'] at h1; cases h1
    rw [hs0'] at hs1; cases hs1
    by_cases hd : (restrictTypes r.types s0).iss ∈ anchorIDs r.anchors ∨ (restrictTypes r.types s0).hints = []
    · rw [root_degenerate hT rfl (by simpa [rootPending] using hd)] at hm
      rw [root_degenerate hT' rfl (by simpa [rootPending] using hd)]
      exact hm
    · have hl : 2 ≤ c.length := by
        rw [root_chains hT rfl (fun h => hd (.inl h)) (fun h => hd (.inr h))] at hm
        obtain ⟨steps, _, rfl⟩ := hm
        simp
      obtain ⟨steps, hv, hch⟩ := (mem_chains_iff hT c hl).mp hm
      refine (mem_chains_iff hT' c hl).mpr ⟨steps, validPath_transfer hW ?_ hv, hch⟩
      intro s hs
      obtain ⟨k, hk⟩ := List.mem_iff_getElem?.mp hs
      obtain ⟨_, ok, _⟩ := step_ok hv k s hk
      rw [← ok.sub_iss]
      apply hc
      obtain ⟨st, _, rfl⟩ := hch
      simp only [List.tail_cons, List.mem_append, List.mem_map]
      exact .inl ⟨s, hs, rfl⟩
  exact ⟨main W W' fuel fuel' cs cs' hW h h', main W' W fuel' fuel cs' cs hW.symm h' h⟩

/-- the example federation with authority `j` down -/
def ex13 : World := { Ex.W with
  ec := fun _ id => if id = "j" then none else Ex.ecOf id
  fetch := fun _ ep sub iss => if iss = "j" then none else Ex.fetchOf ep sub }

example : SameExcept (· = "j") Ex.W ex13 ∧ Ex.R.chainsNoMeta ex13 5 = .ok (some [Ex.chainI]) ∧
    (∀ s ∈ Ex.chainI.tail, ¬ s.iss = "j") := by
  refine ⟨⟨fun _ => rfl, ?_, ?_, rfl, rfl, rfl, rfl⟩, rfl, ?_⟩
  · intro p id h; simp [Ex.W, ex13, h]
  · intro p ep sub iss h; simp [Ex.W, ex13, h]
  · simp [Ex.chainI, Ex.mk, Ex.tEC]

/-! ## C14 -/

/-- C14: with requested types, the leaf of every returned chain is the served configuration with its metadata cut down to
exactly the requested types it declares, known or unknown to the library; everything else is unchanged. -/
theorem C14_types_restrict_leaf (W : World) (r : Resolver) (c : Chain) (h : Produces W r c) (ht : r.types ≠ []) :
    ∃ s0 leaf m m', W.start r.start = some s0 ∧ c[0]? = some leaf ∧ s0.metadata = some m ∧ leaf.metadata = some m' ∧
      leaf = { s0 with metadata := some m' } ∧
      (∀ t em, m'.known t = some em ↔ t.tag ∈ r.types ∧ m.known t = some em) ∧
      (∀ k v, (∃ x, m'.extra = some x ∧ (k, v) ∈ x) ↔ k ∈ r.types ∧ ∃ x, m.extra = some x ∧ (k, v) ∈ x) := by
  obtain ⟨fuel, cs, h1, hc⟩ := produces_noMeta h
  rcases chainsNoMeta_cases h1 with ⟨_, rfl⟩ | ⟨s0, T, _, hs, hm, hT, rfl⟩
  · simp at hc
  have h0 : c[0]? = some (restrictTypes r.types s0) := by
    rcases C02_every_chain_anchored_partial W r c h with ⟨hl, _⟩ | ⟨s1, hs1, rfl, _⟩
    · obtain ⟨s1, steps, hs1, hv, hc⟩ := produces_path h hl
      rw [hs] at hs1; cases hs1
      exact (chain_get hc).2.1
    · rw [hs] at hs1; cases hs1; rfl
  obtain ⟨m, hm⟩ := Option.isSome_iff_exists.mp hm
  have hne : r.types.isEmpty = false := by cases hh : r.types <;> simp_all
  have hr : restrictTypes r.types s0 = { s0 with metadata := some (m.restrict r.types) } := by
    unfold restrictTypes; rw [hne, hm]; rfl
  refine ⟨s0, _, m, m.restrict r.types, hs, h0, hm, by rw [hr], hr, ?_, ?_⟩
  · intro t em
    simp only [Metadata.restrict, List.contains_iff_mem]
    split
    · rename_i h; simp [h]
    · rename_i h; simp [h]
  · intro k v
    simp only [Metadata.restrict]
    cases m.extra with
    | none => simp
    | some x => simp [and_comm]

example : Produces Ex.W { Ex.R with types := ["openid_relying_party"] }
    ({ Ex.leafEC with metadata := some (Ex.rpMeta.restrict ["openid_relying_party"]) } :: Ex.chainI.tail) ∧
    (["openid_relying_party"] : List String) ≠ [] :=
  ⟨⟨5, _, .inl rfl, List.mem_cons_self ..⟩, by simp⟩

end Oidfed
