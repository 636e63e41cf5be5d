import Verif.Spec.Federation
/-! Helper lemmas about the resolver model. -/

namespace Oidfed
open Spec (Step)

/-- verified flag of a tree -/
def Tree.verified : Tree → Bool
  | .node _ _ _ _ v _ _ _ _ => v

/-- subordinate statement of a tree -/
def Tree.sub? : Tree → Option Stmt
  | .node _ s _ _ _ _ _ _ _ => s

/-- entity at the end of a path -/
def lastEntity (e : Stmt) : List Step → Stmt
  | [] => e
  | s :: r => lastEntity s.ec r

/-- Path validity following the recursion of `resolve`. -/
def Good (W : World) (A : List Anchor) : Pos → Pending → List Step → Prop
  | _, t, [] => ∃ ta s0, t.subordinate = some s0 ∧ A.find? (fun a => a.id == t.entity.iss) = some ta ∧
      t.entity.verify W.sig (anchorKeys ta t.entity) = true ∧ s0.verify W.sig (anchorKeys ta t.entity) = true
  | p, t, s :: rest =>
      t.entity.iss ∉ anchorIDs A ∧ t.entity.hints[s.hint]? = some s.ec.iss ∧
      hintStmts W t (p ++ [s.hint]) s.ec.iss = some (s.ec, s.sub) ∧
      t.entity.verify W.sig s.sub.jwks = true ∧
      (∀ s0, t.subordinate = some s0 → s0.verify W.sig s.sub.jwks = true) ∧
      Good W A (p ++ [s.hint]) (childOf t s.ec.iss s.ec s.sub) rest

theorem verifySigs_sub (sig A) (T : Tree) : (verifySigs sig A T).sub? = T.sub? := by
  cases T with
  | node e s n as v x d ty ids =>
    unfold verifySigs
    split
    · rfl
    · split
      · split <;> rfl
      · rfl

theorem zero_not_verified (sig A) : (verifySigs sig A Tree.zero).verified = false := by
  simp [Tree.zero, verifySigs, verifyAuths, Tree.verified]

/-- what the compaction loop keeps -/
theorem mem_chainsList_verifyAuths (sig A) (e : Stmt) (s : Option Stmt) (x : Stmt) (c : Chain) (ts : List Tree) :
    c ∈ chainsList x (verifyAuths sig A (some e) s ts) ↔
      ∃ tt ∈ ts, ∃ ss, tt.sub? = some ss ∧ (verifySigs sig A tt).verified = true ∧ e.verify sig ss.jwks = true ∧
        (∀ s0, s = some s0 → s0.verify sig ss.jwks = true) ∧
        ∃ c' ∈ chains (verifySigs sig A tt), c = x :: c' := by
  induction ts with
  | nil => simp [verifyAuths, chainsList]
  | cons tt ts ih =>
    have hsub := verifySigs_sub sig A tt
    simp only [List.mem_cons, or_and_right, exists_or, exists_eq_left]
    rw [← ih]
    clear ih
    rw [verifyAuths]
    split
    · rename_i te tss tn tas xx d ty ids heq
      rw [heq] at hsub ⊢
      change some tss = _ at hsub
      by_cases hc : ((some e).any (·.verify sig tss.jwks) && s.all (·.verify sig tss.jwks)) = true
      · rw [if_pos hc]
        simp only [Bool.and_eq_true, Option.any_some] at hc
        simp only [chainsList, List.mem_append, List.mem_map]
        constructor
        · rintro (⟨c', hc', rfl⟩ | h)
          · left
            refine ⟨tss, hsub.symm, rfl, hc.1, ?_, c', hc', rfl⟩
            rintro s0 rfl; exact hc.2
          · right; exact h
        · rintro (⟨ss, _, _, _, _, c', hc', rfl⟩ | h)
          · left; exact ⟨c', hc', rfl⟩
          · right; exact h
      · rw [if_neg hc]
        constructor
        · intro h; right; exact h
        · rintro (⟨ss, h1, _, h2, h3, _⟩ | h)
          · exfalso; apply hc
            rw [← hsub] at h1
            cases h1
            simp only [h2, Bool.true_and, Option.any_some]
            cases s with
            | none => rfl
            | some s0 => exact h3 s0 rfl
          · exact h
    · rename_i hne
      constructor
      · intro h; right; exact h
      · rintro (⟨ss, h1, h2, _⟩ | h)
        · exfalso
          cases hv : verifySigs sig A tt with
          | node a b n l v xx d ty ids =>
            rw [hv] at h2 hsub
            simp only [Tree.verified] at h2
            change b = _ at hsub
            rw [h1] at hsub
            subst h2; subst hsub
            exact hne _ _ _ _ _ _ _ _ hv
        · exact h

/-- the loop yields a tree for every hint -/
theorem resolveHints_spec (W : World) (rec : Pos → Pending → Option Tree) (t : Pending) (p : Pos) :
    ∀ (hs : List ID) (i : Nat) (e : Time) (ts : List Tree) (e' : Time),
      resolveHints W rec t p i hs e = some (ts, e') →
      ts.length = hs.length ∧
      ∀ j a, hs[j]? = some a →
        (hintStmts W t (p ++ [i + j]) a = none → ts[j]? = some Tree.zero) ∧
        (∀ ec sb, hintStmts W t (p ++ [i + j]) a = some (ec, sb) →
          ∃ tt, ts[j]? = some tt ∧ rec (p ++ [i + j]) (childOf t a ec sb) = some tt) := by
  intro hs
  induction hs with
  | nil => intro i e ts e' h; simp [resolveHints] at h; simp [h.1]
  | cons a hs ih =>
    intro i e ts e' h
    unfold resolveHints at h
    split at h
    · rename_i hn
      simp only [Option.bind_eq_bind, Option.bind_eq_some_iff] at h
      obtain ⟨⟨ts1, e1⟩, h1, h2⟩ := h
      simp only [Option.some.injEq, Prod.mk.injEq] at h2
      obtain ⟨rfl, rfl⟩ := h2
      obtain ⟨hl, hj⟩ := ih _ _ _ _ h1
      refine ⟨by simp [hl], ?_⟩
      intro j b hb
      cases j with
      | zero =>
        simp at hb; subst hb
        simp [hn]
      | succ j =>
        simp at hb
        have := hj j b hb
        simpa [Nat.add_assoc, Nat.add_comm 1 j] using this
    · rename_i a' s' hn
      simp only [Option.bind_eq_bind, Option.bind_eq_some_iff] at h
      obtain ⟨tt, h0, ⟨ts1, e1⟩, h1, h2⟩ := h
      simp only [Option.some.injEq, Prod.mk.injEq] at h2
      obtain ⟨rfl, rfl⟩ := h2
      obtain ⟨hl, hj⟩ := ih _ _ _ _ h1
      refine ⟨by simp [hl], ?_⟩
      intro j b hb
      cases j with
      | zero =>
        simp at hb; subst hb
        simp [hn, h0]
      | succ j =>
        simp at hb
        have := hj j b hb
        simpa [Nat.add_assoc, Nat.add_comm 1 j] using this

/-- what passing the checks on a hint means -/
theorem hintStmts_iff {W t p a ec sb} : hintStmts W t p a = some (ec, sb) ↔
    a ∉ t.ids ∧ W.ec p a = some ec ∧ ec.iss = a ∧ ec.sub = a ∧ ec.timeValid (W.nowEC p) = true ∧
    ec.fetchEndpoint ≠ "" ∧ W.fetch p ec.fetchEndpoint t.entity.iss a = some sb ∧ sb.iss = a ∧
    sb.sub = t.entity.iss ∧ sb.timeValid (W.nowSub p) = true ∧
    checkConstraints W.host t.depth t.ids t.types sb.constraints = true := by
  unfold hintStmts
  constructor
  · intro h
    split at h; · cases h
    rename_i h0
    split at h; · cases h
    rename_i a' h1
    split at h; · cases h
    rename_i h2
    split at h; · cases h
    rename_i h3
    split at h; · cases h
    rename_i s' h4
    split at h; · cases h
    rename_i h5
    split at h; · cases h
    rename_i h6
    cases h
    simp at h0 h2 h3 h5 h6
    obtain ⟨⟨h7, h8⟩, h9⟩ := h2
    exact ⟨h0, h1, h8, by rw [← h7, h8], h9, h3, h4, h5.1.1, h5.1.2, h5.2, h6⟩
  · rintro ⟨h0, h1, h2, h3, h4, h5, h6, h7, h8, h9, h10⟩
    simp [h0, h1, h2, h3, h4, h5, h6, h7, h8, h9, h10]

theorem hintStmts_iss {W t p a ec sb} (h : hintStmts W t p a = some (ec, sb)) :
    ec.iss = a ∧ ec.sub = a ∧ sb.iss = a ∧ sb.sub = t.entity.iss := by
  obtain ⟨_, _, h2, h3, _, _, _, h7, h8, _⟩ := hintStmts_iff.mp h
  exact ⟨h2, h3, h7, h8⟩

theorem resolve_sub {W A fuel p t T} (h : resolve W A fuel p t = some T) : T.sub? = t.subordinate := by
  cases fuel with
  | zero => simp [resolve] at h
  | succ f =>
    unfold resolve at h
    simp only at h
    split at h
    · cases h; rfl
    · simp only [Option.bind_eq_bind, Option.bind_eq_some_iff] at h
      obtain ⟨x, _, h⟩ := h
      cases h; rfl

/-- What the main lemma says about the nodes above the leaf, for a given recursion bound. -/
def NodeSpec (W : World) (A : List Anchor) (fuel : Nat) : Prop :=
  ∀ (p : Pos) (t : Pending) (T : Tree) (s0 : Stmt),
    resolve W A fuel p t = some T → t.subordinate = some s0 → t.entity.sub = t.entity.iss → s0.iss = t.entity.iss →
    ∀ c, ((verifySigs W.sig A T).verified = true ∧ c ∈ chains (verifySigs W.sig A T)) ↔
      ∃ steps, Good W A p t steps ∧ c = s0 :: (steps.map Step.sub ++ [lastEntity t.entity steps])

/-- Chains through the compacted authorities of a node. -/
theorem auths_key {W A fuel} (ih : NodeSpec W A fuel) {p t e0 ts e'} (x : Stmt)
    (h1 : resolveHints W (resolve W A fuel) t p 0 t.entity.hints e0 = some (ts, e'))
    (hna : t.entity.iss ∉ anchorIDs A) (c : Chain) :
    c ∈ chainsList x (verifyAuths W.sig A (some t.entity) t.subordinate ts) ↔
      ∃ s rest, Good W A p t (s :: rest) ∧
        c = x :: ((s :: rest).map Step.sub ++ [lastEntity t.entity (s :: rest)]) := by
  obtain ⟨hlen, hspec⟩ := resolveHints_spec W _ t p _ _ _ _ _ h1
  rw [mem_chainsList_verifyAuths]
  constructor
  · rintro ⟨tt, htt, ss, hss, hv, he, hs, c', hc', rfl⟩
    obtain ⟨j, hj⟩ := List.mem_iff_getElem?.mp htt
    have hjl : j < t.entity.hints.length := by
      rw [← hlen]; exact (List.getElem?_eq_some_iff.mp hj).1
    have ha : t.entity.hints[j]? = some t.entity.hints[j] := by simp [hjl]
    obtain ⟨hz, hg⟩ := hspec j _ ha
    rw [Nat.zero_add] at hz hg
    cases hh : hintStmts W t (p ++ [j]) t.entity.hints[j] with
    | none =>
      have := hz hh
      rw [hj] at this; cases this
      simp [zero_not_verified] at hv
    | some es =>
      obtain ⟨ec, sb⟩ := es
      obtain ⟨tt', ht1, ht2⟩ := hg ec sb hh
      rw [hj] at ht1; cases ht1
      obtain ⟨i1, i2, i3, i4⟩ := hintStmts_iss hh
      obtain ⟨steps, hgood, rfl⟩ := (ih _ _ _ sb ht2 rfl (by simp [childOf, i1, i2])
        (by simp [childOf, i1, i3]) c').mp ⟨hv, hc'⟩
      have hsb : ss = sb := by
        have := resolve_sub ht2
        rw [hss] at this; cases this; rfl
      subst hsb
      refine ⟨⟨j, ec, ss⟩, steps, ⟨hna, ?_, ?_, he, ?_, ?_⟩, ?_⟩
      · simp only [ha, i1]
      · rw [i1]; exact hh
      · exact hs
      · rw [i1]; exact hgood
      · simp [lastEntity, childOf]
  · rintro ⟨st, rest, hg, rfl⟩
    obtain ⟨_, g1, g2, g3, g4, g5⟩ := hg
    obtain ⟨_, hg'⟩ := hspec st.hint _ g1
    rw [Nat.zero_add] at hg'
    obtain ⟨tt, ht1, ht2⟩ := hg' _ _ g2
    obtain ⟨i1, i2, i3, i4⟩ := hintStmts_iss g2
    obtain ⟨hv, hc⟩ := (ih _ _ _ st.sub ht2 rfl (by simp [childOf, i2]) (by simp [childOf, i3]) _).mpr
      ⟨rest, g5, rfl⟩
    refine ⟨tt, List.mem_of_getElem? ht1, st.sub, by rw [resolve_sub ht2]; rfl, hv, g3, g4, _, hc, ?_⟩
    simp [lastEntity, childOf]

theorem verifyAuths_hints_ne {W A fuel p t e0 ts e' x} {c : Chain}
    (h1 : resolveHints W (resolve W A fuel) t p 0 t.entity.hints e0 = some (ts, e'))
    (hc : c ∈ chainsList x (verifyAuths W.sig A (some t.entity) t.subordinate ts)) :
    t.entity.hints.isEmpty = false := by
  obtain ⟨hlen, _⟩ := resolveHints_spec W _ t p _ _ _ _ _ h1
  cases hh : t.entity.hints with
  | nil =>
    exfalso
    rw [hh] at hlen
    have : ts = [] := by simpa using hlen
    subst this
    simp [verifyAuths, chainsList] at hc
  | cons _ _ => rfl

/-- Main lemma for the nodes above the leaf. -/
theorem node_chains (W : World) (A : List Anchor) (fuel : Nat) : NodeSpec W A fuel := by
  induction fuel with
  | zero => intro p t T s0 h; simp [resolve] at h
  | succ fuel ih =>
    intro p t T s0 h hs0 hsub hiss c
    have hfind : matchingAnchor A t.entity s0 = A.find? (fun a => a.id == t.entity.iss) := by
      unfold matchingAnchor
      congr 1; funext a; simp [hsub, hiss]
    unfold resolve at h
    simp only at h
    split at h
    · -- an anchor
      rename_i hanch
      simp only [Option.some.injEq] at h
      subst h
      rw [hs0]
      have hex : ∃ ta, A.find? (fun a => a.id == t.entity.iss) = some ta := by
        rw [← Option.isSome_iff_exists, List.find?_isSome]
        simp only [anchorIDs, List.contains_iff_mem, List.mem_map] at hanch
        obtain ⟨a, ha, haa⟩ := hanch
        exact ⟨a, ha, by simp [haa]⟩
      obtain ⟨ta, hta⟩ := hex
      rw [← hfind] at hta
      simp only [verifySigs, Bool.false_eq_true, if_false, hta, Tree.verified, chains, Bool.and_eq_true,
        List.mem_singleton]
      constructor
      · rintro ⟨⟨h1, h2⟩, rfl⟩
        refine ⟨[], ⟨ta, s0, hs0, by rw [← hfind, hta], h1, h2⟩, by simp [lastEntity]⟩
      · rintro ⟨steps, hg, rfl⟩
        cases steps with
        | nil =>
          obtain ⟨ta', s1, h0, h1, h2, h3⟩ := hg
          rw [hs0] at h0; cases h0
          rw [← hfind, hta] at h1; cases h1
          exact ⟨⟨h2, h3⟩, by simp [lastEntity]⟩
        | cons s rest =>
          exfalso
          exact hg.1 (by simpa using hanch)
    · rename_i hanch
      have hna : t.entity.iss ∉ anchorIDs A := by simpa using hanch
      have hnone : A.find? (fun a => a.id == t.entity.iss) = none := by
        rw [List.find?_eq_none]
        intro a ha hh
        apply hna
        simp only [anchorIDs, List.mem_map]
        exact ⟨a, ha, by simpa using hh⟩
      simp only [Option.bind_eq_bind, Option.bind_eq_some_iff] at h
      obtain ⟨⟨ts, e⟩, h1, h2⟩ := h
      simp only [Option.some.injEq] at h2
      subst h2
      have hm : matchingAnchor A t.entity s0 = none := by rw [hfind, hnone]
      have key := auths_key ih s0 h1 hna
      have hne := fun c => verifyAuths_hints_ne (x := s0) (c := c) h1
      rw [hs0] at key hne ⊢
      simp only [verifySigs, Bool.false_eq_true, if_false, hm, Tree.verified]
      constructor
      · rintro ⟨hv, hc⟩
        have hh : t.entity.hints.isEmpty = false := by
          obtain ⟨hlen, _⟩ := resolveHints_spec W _ t p _ _ _ _ _ h1
          cases hh : t.entity.hints with
          | nil =>
            exfalso
            rw [hh] at hlen
            have : ts = [] := by simpa using hlen
            subst this
            simp [verifyAuths] at hv
          | cons _ _ => rfl
        rw [hh] at hc
        simp only [chains] at hc
        obtain ⟨s, rest, hg, rfl⟩ := (key c).mp hc
        exact ⟨_, hg, rfl⟩
      · rintro ⟨steps, hg, rfl⟩
        cases steps with
        | nil =>
          obtain ⟨ta', s1, _, h1, _⟩ := hg
          rw [hnone] at h1; cases h1
        | cons s rest =>
          have hc := (key _).mpr ⟨s, rest, hg, rfl⟩
          have hh := hne _ hc
          rw [hh]
          refine ⟨?_, by simpa [chains] using hc⟩
          cases hva : verifyAuths W.sig A (some t.entity) (some s0) ts with
          | nil => rw [hva] at hc; simp [chainsList] at hc
          | cons _ _ => rfl

/-- The chains found from the starting entity. -/
theorem root_chains {W A fuel p t T} (h : resolve W A fuel p t = some T) (hs : t.subordinate = none)
    (hna : t.entity.iss ∉ anchorIDs A) (hne : t.entity.hints ≠ []) (c : Chain) :
    c ∈ chains (verifySigs W.sig A T) ↔
      ∃ steps, Good W A p t steps ∧ c = t.entity :: (steps.map Step.sub ++ [lastEntity t.entity steps]) := by
  cases fuel with
  | zero => simp [resolve] at h
  | succ fuel =>
    unfold resolve at h
    simp only at h
    rw [if_neg (by simpa using hna)] at h
    simp only [Option.bind_eq_bind, Option.bind_eq_some_iff] at h
    obtain ⟨⟨ts, e⟩, h1, h2⟩ := h
    simp only [Option.some.injEq] at h2
    subst h2
    have key := auths_key (node_chains W A fuel) t.entity h1 hna c
    have hh : t.entity.hints.isEmpty = false := by
      cases hh : t.entity.hints with
      | nil => exact absurd hh hne
      | cons _ _ => rfl
    rw [hs] at key ⊢
    rw [hh]
    simp only [verifySigs, Bool.false_eq_true, if_false, chains]
    rw [key]
    constructor
    · rintro ⟨s, rest, hg, rfl⟩; exact ⟨_, hg, rfl⟩
    · rintro ⟨steps, hg, rfl⟩
      cases steps with
      | nil => obtain ⟨_, _, h0, _⟩ := hg; rw [hs] at h0; cases h0
      | cons s rest => exact ⟨s, rest, hg, rfl⟩

/-- The degenerate case: a starting entity that is an anchor or names no authority. -/
theorem root_degenerate {W A fuel p t T} (h : resolve W A fuel p t = some T) (hs : t.subordinate = none)
    (hd : t.entity.iss ∈ anchorIDs A ∨ t.entity.hints = []) :
    chains (verifySigs W.sig A T) = [[t.entity]] := by
  cases fuel with
  | zero => simp [resolve] at h
  | succ fuel =>
    unfold resolve at h
    simp only at h
    split at h
    · cases h
      rw [hs]
      simp [verifySigs, verifyAuths, chains]
    · rename_i hn
      simp only [Option.bind_eq_bind, Option.bind_eq_some_iff] at h
      obtain ⟨⟨ts, e⟩, h1, h2⟩ := h
      simp only [Option.some.injEq] at h2
      subst h2
      have hh : t.entity.hints = [] := by
        cases hd with
        | inl h => exact absurd (by simpa using h) hn
        | inr h => exact h
      rw [hh] at h1 ⊢
      simp only [resolveHints, Option.some.injEq, Prod.mk.injEq] at h1
      obtain ⟨rfl, rfl⟩ := h1
      rw [hs]
      simp [verifySigs, verifyAuths, chains]

/-! ### From `Good` to the index-based specification -/

/-- subordinate statement at the end of a path -/
def lastSub (o : Option Stmt) : List Step → Option Stmt
  | [] => o
  | s :: r => lastSub (some s.sub) r

/-- the `k`-th step relative to a pending node -/
def StepG (W : World) (A : List Anchor) (p : Pos) (t : Pending) (steps : List Step) (k : Nat) (e : Stmt) (s : Step) : Prop :=
  e.iss ∉ anchorIDs A ∧ e.hints[s.hint]? = some s.ec.iss ∧
  s.ec.iss ∉ t.ids ++ (steps.take k).map (fun s => s.ec.iss) ∧
  W.ec (p ++ (steps.take (k+1)).map Step.hint) s.ec.iss = some s.ec ∧ s.ec.sub = s.ec.iss ∧
  s.ec.timeValid (W.nowEC (p ++ (steps.take (k+1)).map Step.hint)) = true ∧ s.ec.fetchEndpoint ≠ "" ∧
  W.fetch (p ++ (steps.take (k+1)).map Step.hint) s.ec.fetchEndpoint e.iss s.ec.iss = some s.sub ∧
  s.sub.iss = s.ec.iss ∧ s.sub.sub = e.iss ∧
  s.sub.timeValid (W.nowSub (p ++ (steps.take (k+1)).map Step.hint)) = true ∧
  checkConstraints W.host (t.depth + k) (t.ids ++ (steps.take k).map (fun s => s.ec.iss))
    (t.types ++ ((steps.take k).map (fun s => s.ec.entityTypes)).flatten) s.sub.constraints = true

theorem stepG_cons {W A p t s rest k e st} :
    StepG W A p t (s :: rest) (k+1) e st ↔ StepG W A (p ++ [s.hint]) (childOf t s.ec.iss s.ec s.sub) rest k e st := by
  simp only [StepG, childOf, List.take_succ_cons, List.map_cons, List.flatten_cons, List.append_assoc,
    List.cons_append, List.nil_append, Nat.add_assoc, Nat.add_comm 1 k]

theorem stepG_zero {W A p t s rest} :
    StepG W A p t (s :: rest) 0 t.entity s ↔
      (t.entity.iss ∉ anchorIDs A ∧ t.entity.hints[s.hint]? = some s.ec.iss ∧
        hintStmts W t (p ++ [s.hint]) s.ec.iss = some (s.ec, s.sub)) := by
  simp only [StepG, hintStmts_iff]
  simp

theorem good_iff (W : World) (A : List Anchor) : ∀ (steps : List Step) (p : Pos) (t : Pending),
    Good W A p t steps ↔
      (∀ k e s, (t.entity :: steps.map Step.ec)[k]? = some e → steps[k]? = some s → StepG W A p t steps k e s) ∧
      (∀ s, steps[0]? = some s → t.entity.verify W.sig s.sub.jwks = true ∧
        ∀ s0, t.subordinate = some s0 → s0.verify W.sig s.sub.jwks = true) ∧
      (∀ k s next, steps[k]? = some s → steps[k+1]? = some next →
        s.ec.verify W.sig next.sub.jwks = true ∧ s.sub.verify W.sig next.sub.jwks = true) ∧
      (∃ ta s0, lastSub t.subordinate steps = some s0 ∧
        A.find? (fun a => a.id == (lastEntity t.entity steps).iss) = some ta ∧
        (lastEntity t.entity steps).verify W.sig (anchorKeys ta (lastEntity t.entity steps)) = true ∧
        s0.verify W.sig (anchorKeys ta (lastEntity t.entity steps)) = true) := by
  intro steps
  induction steps with
  | nil => intro p t; simp [Good, lastEntity, lastSub]
  | cons s rest ih =>
    intro p t
    rw [Good, ih]
    constructor
    · rintro ⟨g1, g2, g3, g4, g5, h1, h2, h3, h4⟩
      refine ⟨?_, ?_, ?_, ?_⟩
      · intro k e st he hst
        cases k with
        | zero =>
          simp at he hst; subst he; subst hst
          exact stepG_zero.mpr ⟨g1, g2, g3⟩
        | succ k =>
          rw [stepG_cons]
          exact h1 k e st (by simpa [childOf] using he) (by simpa using hst)
      · intro s' hs'
        simp at hs'; subst hs'
        exact ⟨g4, g5⟩
      · intro k s' next hs' hn
        cases k with
        | zero =>
          simp at hs'; subst hs'
          have := h2 next (by simpa using hn)
          exact ⟨this.1, this.2 _ rfl⟩
        | succ k => exact h3 k s' next (by simpa using hs') (by simpa using hn)
      · exact h4
    · rintro ⟨h1, h2, h3, h4⟩
      obtain ⟨g1, g2, g3⟩ := stepG_zero.mp (h1 0 t.entity s (by simp) (by simp))
      obtain ⟨g4, g5⟩ := h2 s (by simp)
      refine ⟨g1, g2, g3, g4, g5, ?_, ?_, ?_, h4⟩
      · intro k e st he hst
        exact stepG_cons.mp (h1 (k+1) e st (by simpa [childOf] using he) (by simpa using hst))
      · intro s' hs'
        have := h3 0 s s' (by simp) (by simpa using hs')
        refine ⟨this.1, ?_⟩
        intro s0 hs0
        cases hs0
        exact this.2
      · intro k s' next hs' hn
        exact h3 (k+1) s' next (by simpa using hs') (by simpa using hn)

theorem last_getLast (steps : List Step) (s : Step) (h : steps.getLast? = some s) (e o) :
    lastEntity e steps = s.ec ∧ lastSub o steps = some s.sub := by
  induction steps generalizing e o with
  | nil => simp at h
  | cons a rest ih =>
    cases rest with
    | nil => simp at h; subst h; simp [lastEntity, lastSub]
    | cons b r =>
      rw [List.getLast?_cons_cons] at h
      simpa [lastEntity, lastSub] using ih h a.ec (some a.sub)

/-! ### Decision procedures against their specifications -/

theorem verify_iff (sig : SigOracle) (keys : Keys) (s : Stmt) : s.verify sig keys = true ↔ Spec.Signed sig keys s := by
  unfold Stmt.verify Spec.Signed
  cases hr : s.raw <;> cases keys <;> simp

theorem timeValid_iff (now : Time) (s : Stmt) : s.timeValid now = true ↔ Spec.InWindow now s := by
  unfold Stmt.timeValid verifyTime Spec.InWindow Time.isZero
  by_cases h1 : s.iat = Time.zero <;> by_cases h2 : s.exp = Time.zero <;>
    simp [h1, h2, ← Int.not_lt]

theorem matchNaming_iff (host : ID → Option String) (c : String) (id : ID) :
    matchNaming host c id = true ↔ Spec.HostMatches host c id := by
  unfold matchNaming Spec.HostMatches
  cases host id with
  | none => simp
  | some h =>
    simp only [Option.some.injEq, exists_eq_left']
    cases hc : c.toList with
    | nil =>
      simp only [List.isPrefixOf]
      simp
      exact eq_comm
    | cons x xs =>
      by_cases hx : x = '.'
      · subst hx
        simp only [List.isPrefixOf, beq_self_eq_true, Bool.and_self, if_true, List.isSuffixOf_iff_suffix]
        constructor
        · rintro ⟨pre, hp⟩; exact .inl ⟨⟨_, rfl⟩, pre, hp.symm⟩
        · rintro (⟨_, pre, hp⟩ | ⟨h, _⟩)
          · exact ⟨pre, hp.symm⟩
          · exact absurd ⟨_, rfl⟩ h
      · have hb : ('.' == x) = false := by simpa using fun h => hx h.symm
        simp only [List.isPrefixOf, hb, Bool.false_and, Bool.false_eq_true, if_false, beq_iff_eq]
        constructor
        · rintro rfl
          refine .inr ⟨?_, rfl⟩
          rintro ⟨r, hr⟩; exact hx (List.cons.inj hr).1
        · rintro (⟨⟨r, hr⟩, _⟩ | ⟨_, h⟩)
          · exact absurd (List.cons.inj hr).1 hx
          · exact h.symm

theorem namingOk_iff (host : ID → Option String) (n : Naming) (id : ID) :
    namingOk host n id = true ↔
      (∀ x ∈ n.excluded, ¬ Spec.HostMatches host x id) ∧
      (∀ ps, n.permitted = some ps → ∃ x ∈ ps, Spec.HostMatches host x id) := by
  unfold namingOk
  split
  · rename_i h
    simp only [List.any_eq_true] at h
    obtain ⟨x, hx, hm⟩ := h
    simp only [Bool.false_eq_true, false_iff, not_and]
    intro h'
    exact absurd ((matchNaming_iff host x id).mp hm) (h' x hx)
  · rename_i h
    have h' : ∀ x ∈ n.excluded, ¬ Spec.HostMatches host x id := by
      intro x hx hm
      apply h
      simp only [List.any_eq_true]
      exact ⟨x, hx, (matchNaming_iff host x id).mpr hm⟩
    cases hp : n.permitted with
    | none => simpa using h'
    | some ps =>
      simp only [List.any_eq_true, matchNaming_iff, Option.some.injEq, forall_eq']
      exact ⟨fun h => ⟨h', h⟩, fun h => h.2⟩

theorem checkConstraints_iff (host : ID → Option String) (k : Nat) (ids : List ID) (types : List String) (s : Stmt) :
    checkConstraints host k ids types s.constraints = true ↔ Spec.ConstraintsOk host k ids types s := by
  unfold checkConstraints Spec.ConstraintsOk
  cases s.constraints with
  | none => simp
  | some c =>
    simp only [Option.some.injEq, forall_eq', Bool.and_eq_true, and_assoc]
    refine and_congr ?_ (and_congr ?_ ?_)
    · unfold Spec.PathLenOk
      cases c.maxPath with
      | none => simp
      | some n => simp
    · unfold Spec.NamingOk
      cases c.naming with
      | none => simp
      | some n => simp only [List.all_eq_true, namingOk_iff, Option.some.injEq, forall_eq']
    · unfold Spec.TypeOk
      cases c.allowedTypes with
      | none => simp
      | some ts => simp

theorem find_firstAnchor (A : List Anchor) (id : ID) (ta : Anchor) :
    A.find? (fun a => a.id == id) = some ta ↔ Spec.FirstAnchor A id ta := by
  rw [List.find?_eq_some_iff_append]
  unfold Spec.FirstAnchor
  constructor
  · rintro ⟨h1, as, bs, h2, h3⟩
    exact ⟨as, bs, h2, by simpa using h1, by simpa using h3⟩
  · rintro ⟨as, bs, h2, h1, h3⟩
    exact ⟨by simpa using h1, as, bs, h2, by simpa using h3⟩

theorem anchorKeys_iff (ta : Anchor) (e : Stmt) (keys : Keys) :
    anchorKeys ta e = keys ↔ Spec.AnchorKeys ta e keys := by
  unfold anchorKeys Spec.AnchorKeys
  cases ta.jwks <;> simp [eq_comm]

theorem stepG_root {W A s steps k e st} :
    StepG W A [] (rootPending s) steps k e st ↔ Spec.StepOk W A s steps k e st := by
  simp only [StepG, rootPending, List.nil_append, Nat.zero_add, timeValid_iff, checkConstraints_iff]
  constructor
  · rintro ⟨h1, h2, h3, h4, h5, h6, h7, h8, h9, h10, h11, h12⟩
    exact ⟨h1, h2, h3, h4, h5, h6, h7, h8, h9, h10, h11, h12⟩
  · rintro ⟨h1, h2, h3, h4, h5, h6, h7, h8, h9, h10, h11, h12⟩
    exact ⟨h1, h2, h3, h4, h5, h6, h7, h8, h9, h10, h11, h12⟩

/-- The recursive notion of a good path is the index-based specification. -/
theorem good_valid (W : World) (A : List Anchor) (s : Stmt) (steps : List Step) :
    Good W A [] (rootPending s) steps ↔ Spec.ValidPath W A s steps := by
  rw [good_iff]
  simp only [stepG_root, verify_iff]
  constructor
  · rintro ⟨h1, h2, h3, ta, s0, h4, h5, h6, h7⟩
    refine ⟨h1, fun st hst => (h2 st hst).1, h3, ?_⟩
    cases hl : steps.getLast? with
    | none =>
      have : steps = [] := by simpa using hl
      subst this
      simp [lastSub, rootPending] at h4
    | some st =>
      obtain ⟨e1, e2⟩ := last_getLast steps st hl (rootPending s).entity (rootPending s).subordinate
      rw [e2] at h4; cases h4
      rw [e1] at h5 h6 h7
      exact ⟨st, ta, _, rfl, (find_firstAnchor _ _ _).mp h5, (anchorKeys_iff _ _ _).mp rfl, h6, h7⟩
  · rintro ⟨h1, h2, h3, st, ta, keys, h4, h5, h6, h7, h8⟩
    refine ⟨h1, fun st hst => ⟨h2 st hst, by simp [rootPending]⟩, h3, ?_⟩
    obtain ⟨e1, e2⟩ := last_getLast steps st h4 (rootPending s).entity (rootPending s).subordinate
    rw [e1, e2]
    have := (anchorKeys_iff _ _ _).mpr h6
    subst this
    exact ⟨ta, _, rfl, (find_firstAnchor _ _ _).mpr h5, h7, h8⟩

end Oidfed
