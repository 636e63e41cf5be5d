import Verif.Spec.MetaResolver
import Verif.Lemmas.TrustMark
import Verif.Lemmas.Chains
import Verif.Lemmas.ChainFilter
/-!
# Lemmas on metadata resolvers
-/

namespace Oidfed
open Spec

theorem sortedByPathLen_perm (sw : List (Nat × Nat)) (cs : List Chain) : (sortedByPathLen sw cs).Perm cs := by
  unfold sortedByPathLen
  split
  · exact insOuter_perm _ _ _ _
  · exact runSwaps_perm _ _

theorem firstWithMetadata_ok {cs : List Chain} {c : Chain} {m : Option Metadata} (h : firstWithMetadata cs = .ok (c, m)) :
    c ∈ cs ∧ chainMetadata c = .ok m := by
  induction cs with
  | nil => cases h
  | cons d ds ih =>
    unfold firstWithMetadata at h
    cases hd : chainMetadata d with
    | ok x =>
      rw [hd] at h
      simp only [Except.ok.injEq, Prod.mk.injEq] at h
      obtain ⟨rfl, rfl⟩ := h
      exact ⟨List.mem_cons_self, hd⟩
    | error f =>
      rw [hd] at h
      cases f with
      | panic => cases h
      | error => exact ⟨List.mem_cons_of_mem _ (ih h).1, (ih h).2⟩

theorem localChain_ok {E : Env} {p : CallPos} {q : Req} {c : Chain} {m : Option Metadata}
    (h : localChain E p q = some (.ok (c, m))) : Produces (E.world p) q.resolver c ∧ chainMetadata c = .ok m := by
  unfold localChain at h
  cases hv : q.resolver.validChains (E.world p) E.depth with
  | error f => rw [hv] at h; cases h
  | ok o =>
    rw [hv] at h
    cases o with
    | none => cases h
    | some cs =>
      simp only at h
      split at h
      · cases h
      · obtain ⟨h1, h2⟩ := firstWithMetadata_ok (Option.some.inj h)
        exact ⟨⟨E.depth, cs, .inr hv, (sortedByPathLen_perm _ _).mem_iff.mp h1⟩, h2⟩

/-- The list of verified trust marks. -/
theorem verifiedFederation_spec {R : JWTReader} {sig : SigOracle} {now : Nat → Time × Time} {keysFor : Nat → ID → Option (Res Keys)}
    {ta : MarkAnchor} {is : List Info} (hi : ∀ i ∈ is, InfoOk R i) {n : Nat} {r : List Info}
    (h : verifiedFederation R sig now keysFor ta n is = some (.ok r)) :
    ∃ keep : List Bool, keep.length = is.length ∧
      (∀ k i, is[k]? = some i → (keep[k]? = some true ↔
        ∃ m keys, parseMark R i.jwt = some m ∧ m.type = i.type ∧ IssuerAllowed ta m.type m.iss ∧
          keysFor (n+k) m.iss = some (.ok keys) ∧
          MarkOk R sig (now (n+k)).1 (now (n+k)).2 keys (AMap.get ta.owners m.type) m)) ∧
      r.map (fun i => (i.type, i.jwt)) = ((is.zip keep).filter (fun x => x.2)).map (fun x => (x.1.type, x.1.jwt)) := by
  induction is generalizing n r with
  | nil =>
    simp only [verifiedFederation, Option.some.injEq, Except.ok.injEq] at h
    subst h
    exact ⟨[], rfl, by simp, rfl⟩
  | cons i is ih =>
    unfold verifiedFederation at h
    cases hv : i.verifyFederation R sig (now n).1 (now n).2 (keysFor n) ta with
    | none => rw [hv] at h; cases h
    | some x =>
      rw [hv] at h
      cases x with
      | error f => cases h
      | ok bi =>
        obtain ⟨b, i'⟩ := bi
        simp only at h
        cases hr : verifiedFederation R sig now keysFor ta (n+1) is with
        | none => rw [hr] at h; cases h
        | some y =>
          rw [hr] at h
          cases y with
          | error f => cases h
          | ok r' =>
            simp only [Option.some.injEq, Except.ok.injEq] at h
            obtain ⟨keep, hl, hk, he⟩ := ih (fun j hj => hi j (List.mem_cons_of_mem _ hj)) hr
            obtain ⟨h1, _, h3, h4, _⟩ := infoFederation_spec (hi i List.mem_cons_self) hv
            refine ⟨b :: keep, by simp [hl], ?_, ?_⟩
            · intro k j hj
              cases k with
              | zero =>
                simp only [List.getElem?_cons_zero, Option.some.injEq] at hj ⊢
                subst hj
                exact h1
              | succ k =>
                simp only [List.getElem?_cons_succ] at hj ⊢
                have := hk k j hj
                rw [show n + 1 + k = n + (k + 1) by omega] at this
                exact this
            · subst h
              cases b with
              | true => simp [he, h3, h4]
              | false => simp [he]

/-- The loop over the anchors' resolve endpoints, for any use `f` of their answers. -/
def firstAnswer {β : Type} (f : HttpAnswer → Option β) (E : Env) (p : CallPos) (q : Req) : Nat → List ID → Option β
  | _, [] => none
  | n, a :: as =>
    match E.anchorEC p n a with
    | none => firstAnswer f E p q (n+1) as
    | some ec =>
      if ec.resolveEndpoint = "" then firstAnswer f E p q (n+1) as
      else match f (E.http p n ec.resolveEndpoint q) with
        | some b => some b
        | none => firstAnswer f E p q (n+1) as

theorem smartRemote_eq (E : Env) (p : CallPos) (q : Req) : ∀ (as : List ID) (n : Nat),
    smartRemote E p q n as = firstAnswer (fun x => match x with | .body (some r) => some r | _ => none) E p q n as
  | [], _ => rfl
  | a :: as, n => by
    unfold smartRemote firstAnswer
    rw [smartRemote_eq E p q as]
    cases E.anchorEC p n a with
    | none => rfl
    | some ec =>
      simp only
      split
      · rfl
      · cases E.http p n ec.resolveEndpoint q with
        | failed => rfl
        | errorCode c => rfl
        | body o => cases o <;> rfl

/-- What smart resolving makes of an endpoint's answer. -/
def decisive (x : HttpAnswer) : Option (Bool × Bool) :=
  match simplePossible x with
  | (true, _) => some (true, false)
  | (false, true) => some (false, true)
  | (false, false) => none

theorem smartPossibleRemote_eq (E : Env) (p : CallPos) (q : Req) : ∀ (as : List ID) (n : Nat),
    smartPossibleRemote E p q n as = firstAnswer decisive E p q n as
  | [], _ => rfl
  | a :: as, n => by
    unfold smartPossibleRemote firstAnswer
    rw [smartPossibleRemote_eq E p q as]
    cases E.anchorEC p n a with
    | none => rfl
    | some ec =>
      simp only
      split
      · rfl
      · unfold decisive
        rcases simplePossible (E.http p n ec.resolveEndpoint q) with ⟨_ | _, _ | _⟩ <;> rfl

/-- An answer of the `n`-th anchor's endpoint that counts, with what is made of it. -/
def Gives {β : Type} (f : HttpAnswer → Option β) (E : Env) (p : CallPos) (q : Req) (n : Nat) (b : β) : Prop :=
  ∃ x, EndpointSays E p q n x ∧ f x = some b

theorem endpointSays_det {E : Env} {p : CallPos} {q : Req} {n : Nat} {x y : HttpAnswer} (h1 : EndpointSays E p q n x)
    (h2 : EndpointSays E p q n y) : x = y := by
  obtain ⟨a, ec, ha, hec, _, rfl⟩ := h1
  obtain ⟨a', ec', ha', hec', _, rfl⟩ := h2
  rw [ha] at ha'; cases ha'
  rw [hec] at hec'; cases hec'
  rfl

theorem firstAnswer_aux {β : Type} {f : HttpAnswer → Option β} {E : Env} {p : CallPos} {q : Req} : ∀ (as pre : List ID),
    q.anchors = pre ++ as →
    (∀ b, firstAnswer f E p q pre.length as = some b ↔ ∃ n, pre.length ≤ n ∧ Gives f E p q n b ∧
      ∀ n', pre.length ≤ n' → n' < n → ¬ ∃ b', Gives f E p q n' b') ∧
    (firstAnswer f E p q pre.length as = none ↔ ¬ ∃ n b, pre.length ≤ n ∧ Gives f E p q n b)
  | [], pre, he => by
    have hno : ∀ n b, pre.length ≤ n → ¬ Gives f E p q n b := by
      rintro n b hn ⟨x, ⟨a, _, ha, _⟩, _⟩
      rw [he, List.append_nil, List.getElem?_eq_none hn] at ha
      cases ha
    constructor
    · intro r
      simp only [firstAnswer, reduceCtorEq, false_iff]
      rintro ⟨n, hn, h, _⟩
      exact hno n _ hn h
    · simp only [firstAnswer, true_iff]
      rintro ⟨n, r, hn, h⟩
      exact hno n _ hn h
  | a :: as, pre, he => by
    have ih := firstAnswer_aux (f := f) (E := E) (p := p) (q := q) as (pre ++ [a]) (by rw [he]; simp)
    simp only [List.length_append, List.length_singleton] at ih
    have ha : q.anchors[pre.length]? = some a := by rw [he]; simp
    have hdet : ∀ b, Gives f E p q pre.length b ↔ ∃ ec, E.anchorEC p pre.length a = some ec ∧ ec.resolveEndpoint ≠ "" ∧
        f (E.http p pre.length ec.resolveEndpoint q) = some b := by
      intro b
      constructor
      · rintro ⟨x, ⟨a', ec, h1, h2, h3, rfl⟩, h4⟩
        rw [ha] at h1; cases h1
        exact ⟨ec, h2, h3, h4⟩
      · rintro ⟨ec, h2, h3, h4⟩
        exact ⟨_, ⟨a, ec, ha, h2, h3, rfl⟩, h4⟩
    have skip : (¬ ∃ b, Gives f E p q pre.length b) →
        firstAnswer f E p q pre.length (a :: as) = firstAnswer f E p q (pre.length+1) as →
        (∀ b, firstAnswer f E p q pre.length (a :: as) = some b ↔ ∃ n, pre.length ≤ n ∧ Gives f E p q n b ∧
          ∀ n', pre.length ≤ n' → n' < n → ¬ ∃ b', Gives f E p q n' b') ∧
        (firstAnswer f E p q pre.length (a :: as) = none ↔ ¬ ∃ n b, pre.length ≤ n ∧ Gives f E p q n b) := by
      intro hno heq
      rw [heq]
      constructor
      · intro r
        rw [ih.1 r]
        constructor
        · rintro ⟨n, hn, h1, h2⟩
          refine ⟨n, by omega, h1, ?_⟩
          intro n' hn' hlt
          by_cases hz : n' = pre.length
          · rw [hz]; exact hno
          · exact h2 n' (by omega) hlt
        · rintro ⟨n, hn, h1, h2⟩
          by_cases hz : n = pre.length
          · rw [hz] at h1; exact absurd ⟨r, h1⟩ hno
          · exact ⟨n, by omega, h1, fun n' hn' hlt => h2 n' (by omega) hlt⟩
      · rw [ih.2]
        apply not_congr
        constructor
        · rintro ⟨n, r, hn, h⟩; exact ⟨n, r, by omega, h⟩
        · rintro ⟨n, r, hn, h⟩
          by_cases hz : n = pre.length
          · rw [hz] at h; exact absurd ⟨r, h⟩ hno
          · exact ⟨n, r, by omega, h⟩
    cases hec : E.anchorEC p pre.length a with
    | none =>
      refine skip ?_ ?_
      · rintro ⟨r, h⟩
        obtain ⟨ec, h1, _⟩ := (hdet _).mp h
        rw [hec] at h1; cases h1
      · rw [firstAnswer, hec]
    | some ec =>
      by_cases hep : ec.resolveEndpoint = ""
      · refine skip ?_ ?_
        · rintro ⟨r, h⟩
          obtain ⟨ec', h1, h2, _⟩ := (hdet _).mp h
          rw [hec] at h1; cases h1
          exact h2 hep
        · rw [firstAnswer, hec]; simp only [hep, if_true]
      · cases hh : f (E.http p pre.length ec.resolveEndpoint q) with
        | none =>
          refine skip ?_ ?_
          · rintro ⟨r, h⟩
            obtain ⟨ec', h1, h2, h3⟩ := (hdet _).mp h
            rw [hec] at h1; cases h1
            rw [hh] at h3; cases h3
          · rw [firstAnswer, hec]; simp only [hep, if_false, hh]
        | some b0 =>
          have hs : Gives f E p q pre.length b0 := (hdet _).mpr ⟨ec, hec, hep, hh⟩
          have heq : firstAnswer f E p q pre.length (a :: as) = some b0 := by
            rw [firstAnswer, hec]; simp only [hep, if_false, hh]
          rw [heq]
          constructor
          · intro r
            constructor
            · rintro ⟨⟩
              exact ⟨pre.length, Nat.le_refl _, hs, fun n' h1 h2 => by omega⟩
            · rintro ⟨n, hn, h1, h2⟩
              by_cases hz : n = pre.length
              · rw [hz] at h1
                obtain ⟨ec', h1, h2, h3⟩ := (hdet _).mp h1
                rw [hec] at h1; cases h1
                rw [hh] at h3; cases h3
                rfl
              · exact absurd ⟨b0, hs⟩ (h2 pre.length (Nat.le_refl _) (by omega))
          · constructor
            · intro h; cases h
            · intro h; exact absurd ⟨pre.length, b0, Nat.le_refl _, hs⟩ h

theorem firstAnswer_spec {β : Type} (f : HttpAnswer → Option β) (E : Env) (p : CallPos) (q : Req) :
    (∀ b, firstAnswer f E p q 0 q.anchors = some b ↔ ∃ n, Gives f E p q n b ∧ ∀ n', n' < n → ¬ ∃ b', Gives f E p q n' b') ∧
    (firstAnswer f E p q 0 q.anchors = none ↔ ¬ ∃ n b, Gives f E p q n b) := by
  have := firstAnswer_aux (f := f) (E := E) (p := p) (q := q) q.anchors [] rfl
  simpa using this

end Oidfed
