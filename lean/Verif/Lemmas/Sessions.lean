import Verif.Spec.Sessions
import Verif.Lemmas.CacheResolve
/-!
# Lemmas for C143
-/

namespace Oidfed

open Spec

/-- The remaining steps of a method without any cache. -/
def runSteps (W : World) (fuel : Nat) : List Micro → ResolverObj → Option (List Chain) → Res (Option (ResolverObj × Option (List Chain)))
  | [], o, ret => .ok (some (o, ret))
  | .lookup :: k, o, ret => runSteps W fuel k o ret
  | .tree :: k, o, ret => match o.resolve W fuel with
    | .error e => .error e
    | .ok none => .ok none
    | .ok (some o') => runSteps W fuel k o' ret
  | .build :: k, o, ret => match o.resolve W fuel with
    | .error e => .error e
    | .ok none => .ok none
    | .ok (some o') => runSteps W fuel k o' ret
  | .verify :: k, o, ret => runSteps W fuel k (o.verifySignatures W) ret
  | .storeTree :: k, o, ret => runSteps W fuel k o ret
  | .collect :: k, o, _ => runSteps W fuel k o (some o.chains)
  | .storeChains cs :: k, o, _ => runSteps W fuel k o (some cs)

/-- What is left to do leads to the same end as the method without any cache. -/
def Consistent (s : Session) : Prop :=
  s.obj.tree.expiresAt ≤ Time.zero ∧
  match s.method with
  | none => s.todo = [] ∧ s.ret = none ∧ s.panicked = false
  | some m =>
    if s.panicked then s.todo = [] ∧ ∃ e, runSteps s.world s.fuel m.steps s.before none = .error e
    else runSteps s.world s.fuel s.todo s.obj s.ret = runSteps s.world s.fuel m.steps s.before none

theorem obj_resolve_expiry {W : World} {fuel : Nat} {o o' : ResolverObj} (ho : o.tree.expiresAt ≤ Time.zero) (h : o.resolve W fuel = .ok (some o')) :
    o'.tree.expiresAt ≤ Time.zero := by
  unfold ResolverObj.resolve at h
  by_cases h1 : o.r.start == ""
  · rw [if_pos h1] at h; cases h; exact ho
  · rw [if_neg h1] at h
    cases hs : W.start o.r.start with
    | none => rw [hs] at h; cases h; exact ho
    | some s =>
      rw [hs] at h
      dsimp only at h
      by_cases hm : s.metadata.isNone
      · rw [if_pos hm] at h; cases h
      · rw [if_neg hm] at h
        cases hr : Oidfed.resolve W o.r.anchors fuel [] (rootPending (restrictTypes o.r.types s)) with
        | none => rw [hr] at h; cases h
        | some t => rw [hr] at h; cases h; exact resolve_expiry hr

theorem obj_noStart {W : World} {fuel : Nat} {o : ResolverObj} (h : o.r.start = "" ∨ W.start o.r.start = none) : o.resolve W fuel = .ok (some o) := by
  unfold ResolverObj.resolve
  by_cases h1 : o.r.start = ""
  · simp [h1]
  · rcases h with h | h
    · exact absurd h h1
    · simp [h1, h]

theorem consistent_running {s : Session} (h : Consistent s) {a : Micro} {k : List Micro} (ht : s.todo = a :: k) :
    ∃ m, s.method = some m ∧ s.panicked = false ∧ runSteps s.world s.fuel (a :: k) s.obj s.ret = runSteps s.world s.fuel m.steps s.before none := by
  obtain ⟨_, h2⟩ := h
  cases hm : s.method with
  | none => simp only [hm] at h2; rw [ht] at h2; exact absurd h2.1 (by simp)
  | some m =>
    simp only [hm] at h2
    cases hp : s.panicked with
    | true => rw [hp, if_pos rfl, ht] at h2; exact absurd h2.1 (by simp)
    | false => rw [hp, if_neg (by simp), ht] at h2; exact ⟨m, rfl, rfl, h2⟩

theorem consistent_mk {s : Session} {m : Method} (h1 : s.obj.tree.expiresAt ≤ Time.zero) (h2 : s.method = some m) (h3 : s.panicked = false)
    (h4 : runSteps s.world s.fuel s.todo s.obj s.ret = runSteps s.world s.fuel m.steps s.before none) : Consistent s := by
  refine ⟨h1, ?_⟩
  simp only [h2, h3]
  exact h4

theorem session_step {H : Hashes} {S S' : Store Item} {s s' : Session} (hS : NoTrees S) (hc : Consistent s) (h : SessionStep .memory H S s S' s') :
    NoTrees S' ∧ Consistent s' := by
  cases h with
  | hit hn ht hg => rw [chainsGet_none hS] at hg; cases hg
  | miss hn ht hg =>
    obtain ⟨m, h1, h2, h3⟩ := consistent_running hc ht
    exact ⟨hS, consistent_mk hc.1 h1 h2 h3⟩
  | treeHit hn ht hg he => rw [treeGet_none hS] at hg; cases hg
  | treeMiss hn ht hg =>
    obtain ⟨m, h1, h2, h3⟩ := consistent_running hc ht
    exact ⟨hS, consistent_mk hc.1 h1 h2 h3⟩
  | noStart ht hs =>
    obtain ⟨m, h1, h2, h3⟩ := consistent_running hc ht
    refine ⟨hS, consistent_mk hc.1 h1 h2 ?_⟩
    simp only [runSteps, obj_noStart hs] at h3
    exact h3
  | build ht hs hr =>
    obtain ⟨m, h1, h2, h3⟩ := consistent_running hc ht
    refine ⟨hS, consistent_mk (obj_resolve_expiry hc.1 hr) h1 h2 ?_⟩
    simp only [runSteps, hr] at h3
    exact h3
  | @panic _ e ht hr =>
    obtain ⟨m, h1, h2, h3⟩ := consistent_running hc ht
    refine ⟨hS, hc.1, ?_⟩
    simp only [runSteps, hr] at h3
    simp only [h1, if_true]
    exact ⟨trivial, e, h3.symm⟩
  | verify ht =>
    obtain ⟨m, h1, h2, h3⟩ := consistent_running hc ht
    refine ⟨hS, consistent_mk ?_ h1 h2 h3⟩
    show (verifySigs _ _ _).expiresAt ≤ _
    rw [verifySigs_expiry]; exact hc.1
  | storeTree hu hst ht =>
    obtain ⟨m, h1, h2, h3⟩ := consistent_running hc ht
    refine ⟨?_, consistent_mk hc.1 h1 h2 h3⟩
    unfold treeSet
    rw [memory_set_expired hu hc.1]
    exact noTrees_put hS
  | empty ht he =>
    obtain ⟨m, h1, h2, h3⟩ := consistent_running hc ht
    refine ⟨hS, consistent_mk hc.1 h1 h2 ?_⟩
    simp only [runSteps, he] at h3
    exact h3
  | collect ht he =>
    obtain ⟨m, h1, h2, h3⟩ := consistent_running hc ht
    exact ⟨hS, consistent_mk hc.1 h1 h2 h3⟩
  | storeChains hu hst ht =>
    obtain ⟨m, h1, h2, h3⟩ := consistent_running hc ht
    refine ⟨?_, consistent_mk hc.1 h1 h2 h3⟩
    unfold chainsSet
    rw [memory_set_expired hu hc.1]
    exact noTrees_put hS
  | assign r ht => exact ⟨hS, hc.1, rfl, rfl, rfl⟩
  | start m W fuel ht => exact ⟨hS, consistent_mk hc.1 rfl rfl rfl⟩

theorem sessions_invariant {H : Hashes} {S : Store Item} {ss : List Session} (h : SessionReach .memory H S ss) : NoTrees S ∧ ∀ s ∈ ss, Consistent s := by
  induction h with
  | init => exact ⟨fun _ => ⟨rfl, rfl⟩, by simp⟩
  | spawn h r W ih =>
    refine ⟨ih.1, ?_⟩
    intro s hs
    rcases List.mem_cons.mp hs with rfl | hs
    · exact ⟨Int.le_refl _, rfl, rfl, rfl⟩
    · exact ih.2 s hs
  | write h w ih =>
    refine ⟨fun k => ⟨?_, ?_⟩, ih.2⟩
    · rw [write_other w k .trustTree (.inl rfl)]; exact (ih.1 k).1
    · rw [write_other w k .trustTreeChains (.inr rfl)]; exact (ih.1 k).2
  | lose h k ih => exact ⟨noTrees_put ih.1, ih.2⟩
  | @step S S' pre post s s' h hs ih =>
    obtain ⟨hS, hss⟩ := ih
    obtain ⟨h1, h2⟩ := session_step hS (hss s (by simp)) hs
    refine ⟨h1, ?_⟩
    intro x hx
    simp only [List.mem_append, List.mem_cons] at hx
    rcases hx with hx | rfl | hx
    · exact hss x (by simp [hx])
    · exact h2
    · exact hss x (by simp [hx])

/-- The steps of a method without any cache are the method. -/
theorem consistent_done {s : Session} (h : Consistent s) (ht : s.todo = []) (hp : s.panicked = false) : AsIfAlone s := by
  obtain ⟨_, h2⟩ := h
  unfold AsIfAlone
  cases hm : s.method with
  | none => simp only [hm] at h2; exact h2.2.1
  | some m =>
    simp only [hm, hp, Bool.false_eq_true, if_false, ht] at h2
    cases m with
    | resolve =>
      simp only [Method.steps, runSteps] at h2
      cases hr : s.before.resolve s.world s.fuel with
      | error e => rw [hr] at h2; cases h2
      | ok x =>
        cases x with
        | none => rw [hr] at h2; cases h2
        | some o => rw [hr] at h2; simp only [Except.ok.injEq, Option.some.injEq, Prod.mk.injEq] at h2; rw [h2.1]; exact ⟨rfl, h2.2⟩
    | verify =>
      simp only [Method.steps, runSteps, Except.ok.injEq, Option.some.injEq, Prod.mk.injEq] at h2
      exact h2
    | chains =>
      simp only [Method.steps, runSteps, Except.ok.injEq, Option.some.injEq, Prod.mk.injEq] at h2
      exact h2
    | call =>
      simp only [Method.steps, runSteps] at h2
      unfold ResolverObj.call
      cases hr : s.before.resolve s.world s.fuel with
      | error e => rw [hr] at h2; cases h2
      | ok x =>
        cases x with
        | none => rw [hr] at h2; cases h2
        | some o =>
          rw [hr] at h2
          simp only [Except.ok.injEq, Option.some.injEq, Prod.mk.injEq] at h2
          rw [h2.1]
          exact ⟨_, rfl, h2.2⟩

/-- A panic is one of `Resolve`. -/
theorem consistent_panic {s : Session} (h : Consistent s) (hp : s.panicked = true) :
    (s.method = some .resolve ∨ s.method = some .call) ∧ ∃ e, s.before.resolve s.world s.fuel = .error e := by
  obtain ⟨_, h2⟩ := h
  cases hm : s.method with
  | none => simp only [hm] at h2; rw [hp] at h2; exact absurd h2.2.2 (by simp)
  | some m =>
    simp only [hm, hp, if_true] at h2
    obtain ⟨_, e, h2⟩ := h2
    cases m with
    | verify => simp [Method.steps, runSteps] at h2
    | chains => simp [Method.steps, runSteps] at h2
    | resolve =>
      refine ⟨.inl rfl, ?_⟩
      simp only [Method.steps, runSteps] at h2
      cases hr : s.before.resolve s.world s.fuel with
      | error e => exact ⟨e, rfl⟩
      | ok x => cases x <;> (rw [hr] at h2; cases h2)
    | call =>
      refine ⟨.inr rfl, ?_⟩
      simp only [Method.steps, runSteps] at h2
      cases hr : s.before.resolve s.world s.fuel with
      | error e => exact ⟨e, rfl⟩
      | ok x => cases x <;> (rw [hr] at h2; cases h2)

end Oidfed
