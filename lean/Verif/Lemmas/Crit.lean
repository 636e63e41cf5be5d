import Verif.Spec.Crit
/-!
# The resolver does not look at `crit`
-/

namespace Oidfed
open Spec

mutual
/-- The tree with other `crit` claims. -/
def Tree.withCrit (g : Option Nat → List String) : Tree → Tree
  | .node e s n as v x d ty ids => .node (e.map (WithCrit g)) (s.map (WithCrit g)) n (treesWithCrit g as) v x d ty ids
def treesWithCrit (g : Option Nat → List String) : List Tree → List Tree
  | [] => []
  | t :: ts => t.withCrit g :: treesWithCrit g ts
end

def Pending.withCrit (g : Option Nat → List String) (t : Pending) : Pending :=
  ⟨WithCrit g t.entity, t.subordinate.map (WithCrit g), t.depth, t.types, t.ids⟩

theorem hintStmts_crit (g : Option Nat → List String) (W : World) (t : Pending) (p : Pos) (a : ID) :
    hintStmts (WorldWithCrit g W) (t.withCrit g) p a = (hintStmts W t p a).map (fun x => (WithCrit g x.1, WithCrit g x.2)) := by
  unfold hintStmts
  show (if t.ids.contains a then none else match (W.ec p a).map (WithCrit g) with
    | none => none
    | some a' => _) = _
  split
  · rfl
  · cases W.ec p a with
    | none => rfl
    | some ec =>
      simp only [Option.map_some]
      show (if (!(ec.iss == ec.sub && ec.iss == a) || !ec.timeValid (W.nowEC p)) = true then none
        else if (ec.fetchEndpoint == "") = true then none
        else match (W.fetch p ec.fetchEndpoint t.entity.iss a).map (WithCrit g) with
        | none => none
        | some s =>
          if (s.iss != a || s.sub != t.entity.iss || !s.timeValid (W.nowSub p)) = true then none
          else if (!checkConstraints W.host t.depth t.ids t.types s.constraints) = true then none
          else some (WithCrit g ec, s)) = _
      split
      · rfl
      · split
        · rfl
        · cases W.fetch p ec.fetchEndpoint t.entity.iss a with
          | none => rfl
          | some s =>
            simp only [Option.map_some]
            show (if (s.iss != a || s.sub != t.entity.iss || !s.timeValid (W.nowSub p)) = true then none
              else if (!checkConstraints W.host t.depth t.ids t.types s.constraints) = true then none
              else some (WithCrit g ec, WithCrit g s)) = _
            split
            · rfl
            · split <;> rfl

theorem resolveHints_crit (g : Option Nat → List String) (W : World) (rec rec' : Pos → Pending → Option Tree)
    (hr : ∀ p t, rec' p (t.withCrit g) = (rec p t).map (Tree.withCrit g)) (t : Pending) (p : Pos) (i : Nat) (hs : List ID) (e : Time) :
    resolveHints (WorldWithCrit g W) rec' (t.withCrit g) p i hs e = (resolveHints W rec t p i hs e).map (fun x => (treesWithCrit g x.1, x.2)) := by
  induction hs generalizing i e with
  | nil => rfl
  | cons a hs ih =>
    simp only [resolveHints, hintStmts_crit]
    cases hintStmts W t (p ++ [i]) a with
    | none =>
      simp only [Option.map_none, ih]
      cases resolveHints W rec t p (i+1) hs e with
      | none => rfl
      | some x => rfl
    | some x =>
      obtain ⟨ec, s⟩ := x
      simp only [Option.map_some]
      have hc : childOf (t.withCrit g) a (WithCrit g ec) (WithCrit g s) = (childOf t a ec s).withCrit g := rfl
      rw [hc, hr]
      cases rec (p ++ [i]) (childOf t a ec s) with
      | none => rfl
      | some tt =>
        simp only [Option.map_some, Option.bind_eq_bind, Option.bind_some, ih]
        show Option.bind (Option.map _ (resolveHints W rec t p (i+1) hs (if s.exp < e then s.exp else e))) _ = _
        cases resolveHints W rec t p (i+1) hs (if s.exp < e then s.exp else e) with
        | none => rfl
        | some y => rfl

theorem resolve_crit (g : Option Nat → List String) (W : World) (A : List Anchor) (fuel : Nat) (p : Pos) (t : Pending) :
    resolve (WorldWithCrit g W) A fuel p (t.withCrit g) = (resolve W A fuel p t).map (Tree.withCrit g) := by
  induction fuel generalizing p t with
  | zero => rfl
  | succ fuel ih =>
    simp only [resolve]
    have h1 : (t.withCrit g).entity.iss = t.entity.iss := rfl
    have h2 : (t.withCrit g).entity.hints = t.entity.hints := rfl
    have h3 : (t.withCrit g).entity.exp = t.entity.exp := rfl
    rw [h1, h2, h3]
    split
    · rfl
    · rw [resolveHints_crit g W _ _ ih]
      cases resolveHints W (resolve W A fuel) t p 0 t.entity.hints (if t.entity.exp < Time.zero then t.entity.exp else Time.zero) with
      | none => rfl
      | some x => rfl

theorem matchingAnchor_crit (g : Option Nat → List String) (A : List Anchor) (e s : Stmt) :
    matchingAnchor A (WithCrit g e) (WithCrit g s) = matchingAnchor A e s := rfl

theorem treesWithCrit_isEmpty (g : Option Nat → List String) (ts : List Tree) : (treesWithCrit g ts).isEmpty = ts.isEmpty := by
  cases ts <;> rfl

mutual
theorem verifySigs_crit (g : Option Nat → List String) (sig : SigOracle) (A : List Anchor) :
    ∀ t : Tree, verifySigs sig A (t.withCrit g) = (verifySigs sig A t).withCrit g
  | .node e s n as v x d ty ids => by
    have hv := fun e s => verifyAuths_crit g sig A e s as
    simp only [Tree.withCrit, verifySigs]
    cases v with
    | true => simp [Tree.withCrit]
    | false =>
      cases e with
      | none =>
        have := hv none none
        have h2 := fun s => hv none (some s)
        simp only [Option.map_none, Option.map_some] at this h2
        cases s <;> simp [Tree.withCrit, this, h2, treesWithCrit_isEmpty]
      | some e =>
        cases s with
        | none =>
          have := hv (some e) none
          simp only [Option.map_none, Option.map_some] at this
          simp [Tree.withCrit, this, treesWithCrit_isEmpty]
        | some s =>
          have := hv (some e) (some s)
          simp only [Option.map_some] at this
          simp only [Option.map_some, matchingAnchor_crit, Bool.false_eq_true, if_false]
          cases matchingAnchor A e s with
          | none => simp [Tree.withCrit, this, treesWithCrit_isEmpty]
          | some ta => rfl
theorem verifyAuths_crit (g : Option Nat → List String) (sig : SigOracle) (A : List Anchor) (e s : Option Stmt) :
    ∀ ts : List Tree, verifyAuths sig A (e.map (WithCrit g)) (s.map (WithCrit g)) (treesWithCrit g ts) = treesWithCrit g (verifyAuths sig A e s ts)
  | [] => rfl
  | tt :: rest => by
    have h1 := verifySigs_crit g sig A tt
    have h2 := verifyAuths_crit g sig A e s rest
    simp only [treesWithCrit, verifyAuths, h1]
    cases verifySigs sig A tt with
    | node te ts tn tas v x d ty ids =>
      simp only [Tree.withCrit]
      cases ts with
      | none => cases v <;> exact h2
      | some ts =>
        cases v with
        | false => exact h2
        | true =>
          simp only [Option.map_some]
          have h3 : (e.map (WithCrit g)).any (·.verify sig (WithCrit g ts).jwks) = e.any (·.verify sig ts.jwks) := by cases e <;> rfl
          have h4 : (s.map (WithCrit g)).all (·.verify sig (WithCrit g ts).jwks) = s.all (·.verify sig ts.jwks) := by cases s <;> rfl
          rw [h3, h4]
          split
          · rw [h2]; rfl
          · exact h2
end

mutual
theorem chains_crit (g : Option Nat → List String) : ∀ t : Tree, chains (t.withCrit g) = (chains t).map (List.map (WithCrit g))
  | .node e s n as v x d ty ids => by
    have hl := fun x => chainsList_crit g x as
    cases n with
    | true => cases e <;> cases s <;> rfl
    | false =>
      cases s with
      | some s => simp only [Tree.withCrit, Option.map_some, chains]; exact hl s
      | none =>
        cases e with
        | none => rfl
        | some e => simp only [Tree.withCrit, Option.map_some, Option.map_none, chains]; exact hl e
theorem chainsList_crit (g : Option Nat → List String) (x : Stmt) :
    ∀ ts : List Tree, chainsList (WithCrit g x) (treesWithCrit g ts) = (chainsList x ts).map (List.map (WithCrit g))
  | [] => rfl
  | t :: ts => by
    have h1 := chains_crit g t
    have h2 := chainsList_crit g x ts
    simp only [treesWithCrit, chainsList, h1, h2, List.map_append, List.map_map]
    rfl
end

theorem critOk_crit (g : Option Nat → List String) (c : Chain) : critOk (c.map (WithCrit g)) = critOk c := by
  unfold critOk
  rw [List.all_map]
  rfl

theorem chainMetadata_crit (g : Option Nat → List String) (c : Chain) : chainMetadata (c.map (WithCrit g)) = chainMetadata c := by
  match c with
  | [] => rfl
  | [s] => rfl
  | s :: t :: c =>
    have h1 : (List.map (WithCrit g) (s :: t :: c)).map Stmt.policy = (s :: t :: c).map Stmt.policy := by
      rw [List.map_map]; rfl
    have h2 := critOk_crit g (s :: t :: c)
    simp only [List.map_cons] at h1 h2 ⊢
    simp only [chainMetadata, h2, List.map_cons, h1]
    rfl

theorem filterValid_crit (g : Option Nat → List String) (cs : List Chain) :
    filterValidMetadata (cs.map (List.map (WithCrit g))) = (filterValidMetadata cs).map (List.map (List.map (WithCrit g))) := by
  induction cs with
  | nil => rfl
  | cons c cs ih =>
    simp only [List.map_cons, filterValidMetadata, chainMetadata_crit, ih]
    cases chainMetadata c with
    | error f => cases f <;> rfl
    | ok m => cases filterValidMetadata cs <;> rfl

theorem resolveTree_crit (g : Option Nat → List String) (W : World) (fuel : Nat) (r : Resolver) :
    r.resolveTree (WorldWithCrit g W) fuel = (r.resolveTree W fuel).map (Option.map (Tree.withCrit g)) := by
  unfold Resolver.resolveTree
  split
  · rfl
  · show (match (W.start r.start).map (WithCrit g) with
      | none => _
      | some s => _) = _
    cases W.start r.start with
    | none => rfl
    | some s =>
      simp only [Option.map_some]
      show (if s.metadata.isNone = true then _ else _) = _
      split
      · rfl
      · have : rootPending (restrictTypes r.types (WithCrit g s)) = (rootPending (restrictTypes r.types s)).withCrit g := by
          unfold restrictTypes
          split <;> rfl
        rw [this, resolve_crit]
        rfl

theorem chainsNoMeta_crit (g : Option Nat → List String) (W : World) (fuel : Nat) (r : Resolver) :
    r.chainsNoMeta (WorldWithCrit g W) fuel = (r.chainsNoMeta W fuel).map (Option.map (List.map (List.map (WithCrit g)))) := by
  unfold Resolver.chainsNoMeta
  rw [resolveTree_crit]
  cases r.resolveTree W fuel with
  | error f => rfl
  | ok t =>
    cases t with
    | none => rfl
    | some t =>
      show Except.ok (some (chains (verifySigs W.sig r.anchors (t.withCrit g)))) = _
      rw [verifySigs_crit, chains_crit]
      rfl

theorem validChains_crit (g : Option Nat → List String) (W : World) (fuel : Nat) (r : Resolver) :
    r.validChains (WorldWithCrit g W) fuel = (r.validChains W fuel).map (Option.map (List.map (List.map (WithCrit g)))) := by
  unfold Resolver.validChains
  rw [chainsNoMeta_crit]
  cases r.chainsNoMeta W fuel with
  | error f => rfl
  | ok cs =>
    cases cs with
    | none => rfl
    | some cs =>
      show (filterValidMetadata (cs.map (List.map (WithCrit g)))).bind _ = _
      rw [filterValid_crit]
      show _ = Except.map _ ((filterValidMetadata cs).bind _)
      cases filterValidMetadata cs <;> rfl

end Oidfed
