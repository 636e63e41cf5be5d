import Verif.Spec.Reuse
import Verif.Props.Resolver
/-!
# C118: using a resolver again
-/

namespace Oidfed

open Spec

/-- A call in terms of a call on a new resolver, if the starting configuration is obtained. -/
theorem call_obtained (W : World) (fuel : Nat) (o : ResolverObj) (h : Obtains W o.r) :
    o.call W fuel = (ResolverObj.fresh o.r).call W fuel := by
  obtain ⟨h1, s, hs⟩ := h
  unfold ResolverObj.call ResolverObj.resolve ResolverObj.fresh
  simp only [beq_iff_eq, h1, if_false, hs]

theorem call_unobtained (W : World) (fuel : Nat) (o : ResolverObj) (h : ¬ Obtains W o.r) :
    o.call W fuel = .ok (some ((o.verifySignatures W).chains, o.verifySignatures W)) := by
  unfold ResolverObj.call ResolverObj.resolve
  by_cases h1 : o.r.start = ""
  · simp only [beq_iff_eq, h1, if_true]; rfl
  · cases hs : W.start o.r.start with
    | none => simp only [beq_iff_eq, h1, if_false, hs]; rfl
    | some s => exact absurd ⟨h1, s, hs⟩ h

/-- A new resolver returns what the model of one call says. -/
theorem call_fresh (W : World) (fuel : Nat) (r : Resolver) :
    ((ResolverObj.fresh r).call W fuel).map (fun x => x.map Prod.fst) = r.chainsNoMeta W fuel := by
  by_cases h1 : r.start = ""
  · simp only [ResolverObj.call, ResolverObj.resolve, ResolverObj.fresh, Resolver.chainsNoMeta, Resolver.resolveTree, beq_iff_eq, h1, if_true]; rfl
  · cases hs : W.start r.start with
    | none => simp only [ResolverObj.call, ResolverObj.resolve, ResolverObj.fresh, Resolver.chainsNoMeta, Resolver.resolveTree, beq_iff_eq, h1, if_false, hs]; rfl
    | some s =>
      by_cases hm : s.metadata.isNone
      · simp only [ResolverObj.call, ResolverObj.resolve, ResolverObj.fresh, Resolver.chainsNoMeta, Resolver.resolveTree, beq_iff_eq, h1, if_false, hs, hm, if_true]; rfl
      · simp only [ResolverObj.call, ResolverObj.resolve, ResolverObj.fresh, Resolver.chainsNoMeta, Resolver.resolveTree, beq_iff_eq, h1, if_false, hs, hm,
          Bool.false_eq_true, bind, Except.bind, Except.map]
        cases Oidfed.resolve W r.anchors fuel [] (rootPending (restrictTypes r.types s)) <;> rfl

/-- **C118** (part): whatever was done with a resolver before, and whatever its fields were then, a call in which the starting configuration is obtained returns
what a new resolver with the same fields returns. Missing: calls in which it is not obtained. -/
theorem C118_obtained_partial (us : List ResolverUse) (o : ResolverObj) (W : World) (fuel : Nat) (h : Obtains W (us.foldl ResolverObj.after o).r) :
    ((us.foldl ResolverObj.after o).call W fuel).map (fun x => x.map Prod.fst) = (us.foldl ResolverObj.after o).r.chainsNoMeta W fuel := by
  rw [call_obtained W fuel _ h, call_fresh]

/-- **C118** (part): doing the steps one by one is the same: after whatever history, `Resolve` and `VerifySignatures` leave an object whose `Chains` are those that a new
resolver with the same fields returns. Missing: calls in which the starting configuration is not obtained. -/
theorem C118_steps_partial (us : List ResolverUse) (o : ResolverObj) (W : World) (fuel : Nat) (cs : List Chain) (h : Obtains W (us.foldl ResolverObj.after o).r)
    (hc : (us.foldl ResolverObj.after o).r.chainsNoMeta W fuel = .ok (some cs)) :
    ((us ++ [ResolverUse.resolve W fuel, ResolverUse.verify W]).foldl ResolverObj.after o).chains = cs := by
  have h' := C118_obtained_partial us o W fuel h
  rw [hc] at h'
  rw [List.foldl_append]
  show (((us.foldl ResolverObj.after o).after (.resolve W fuel)).verifySignatures W).chains = cs
  generalize us.foldl ResolverObj.after o = o' at h'
  unfold ResolverObj.call at h'
  simp only [ResolverObj.after]
  cases hr : o'.resolve W fuel with
  | error e => rw [hr] at h'; cases h'
  | ok x =>
    cases x with
    | none => rw [hr] at h'; cases h'
    | some o'' =>
      rw [hr] at h'
      simp only [bind, Except.bind, Except.map, Option.map_some, Except.ok.injEq, Option.some.injEq] at h'
      exact h'

/-- The root is verified once. -/
theorem verify_root (sig sig' : SigOracle) (A A' : List Anchor) (e : Option Stmt) (n : Bool) (as : List Tree) (v : Bool) (x : Time) (d : Nat) (ty : List String) (ids : List ID) :
    verifySigs sig' A' (verifySigs sig A (.node e none n as v x d ty ids)) = verifySigs sig A (.node e none n as v x d ty ids) := by
  cases v with
  | true => simp [verifySigs]
  | false =>
    have h : ∀ (s : SigOracle) (B : List Anchor) (bs : List Tree),
        verifySigs s B (.node e none n bs false x d ty ids) = .node e none n (verifyAuths s B e none bs) (!(verifyAuths s B e none bs).isEmpty) x d ty ids := by
      intro s B bs
      cases e <;> simp [verifySigs]
    rw [h]
    cases hv : verifyAuths sig A e none as with
    | nil => rw [show (!([] : List Tree).isEmpty) = false from rfl, h]; simp [verifyAuths]
    | cons a l => simp [verifySigs]

/-- The tree of a resolver that made calls only: empty, or verified with the root of one of the calls. -/
theorem resolved_root {W : World} {A : List Anchor} {fuel : Nat} {p : Pos} {t : Pending} {T : Tree} (h : Oidfed.resolve W A fuel p t = some T) :
    ∃ n as x d ty ids, T = .node (some t.entity) t.subordinate n as false x d ty ids := by
  cases fuel with
  | zero => cases h
  | succ k =>
    unfold Oidfed.resolve at h
    dsimp only at h
    split at h
    · cases h; exact ⟨_, _, _, _, _, _, rfl⟩
    · cases hr : resolveHints W (Oidfed.resolve W A k) t p 0 t.entity.hints (if t.entity.exp < Time.zero then t.entity.exp else Time.zero) with
      | none => rw [hr] at h; cases h
      | some y => rw [hr] at h; cases h; exact ⟨_, _, _, _, _, _, rfl⟩

/-- Verifying changes nothing any more. -/
def Settled (o : ResolverObj) : Prop := ∀ sig A, verifySigs sig A o.tree = o.tree

theorem settled_fresh (r : Resolver) : Settled (ResolverObj.fresh r) := by
  intro sig A
  simp [ResolverObj.fresh, Tree.zero, verifySigs, verifyAuths]

theorem settled_call {W : World} {fuel : Nat} {o o' : ResolverObj} {cs : List Chain} (ho : Settled o) (h : o.call W fuel = .ok (some (cs, o'))) :
    Settled o' ∧ o'.r = o.r ∧ cs = o'.chains := by
  by_cases hb : Obtains W o.r
  · obtain ⟨h1, s, hs⟩ := hb
    unfold ResolverObj.call ResolverObj.resolve at h
    simp only [beq_iff_eq, h1, if_false, hs] at h
    by_cases hm : s.metadata.isNone
    · simp [hm, bind, Except.bind] at h
    · simp only [hm, Bool.false_eq_true, if_false, bind, Except.bind] at h
      cases hr : Oidfed.resolve W o.r.anchors fuel [] (rootPending (restrictTypes o.r.types s)) with
      | none => rw [hr] at h; cases h
      | some T =>
        rw [hr] at h
        obtain ⟨n, as, x, d, ty, ids, rfl⟩ := resolved_root hr
        simp only [Option.map_some, Except.ok.injEq, Option.some.injEq, Prod.mk.injEq] at h
        obtain ⟨rfl, rfl⟩ := h
        refine ⟨?_, rfl, rfl⟩
        intro sig A
        show verifySigs sig A (verifySigs W.sig o.r.anchors (.node (some _) none n as false x d ty ids)) = verifySigs W.sig o.r.anchors (.node (some _) none n as false x d ty ids)
        exact verify_root W.sig sig o.r.anchors A _ n as false x d ty ids
  · rw [call_unobtained W fuel o hb] at h
    simp only [Except.ok.injEq, Option.some.injEq, Prod.mk.injEq] at h
    obtain ⟨rfl, rfl⟩ := h
    have e : o.verifySignatures W = o := by
      obtain ⟨r, t⟩ := o
      simp only [ResolverObj.verifySignatures, ho _ _]
    rw [e]
    exact ⟨ho, rfl, rfl⟩

theorem after_calls : ∀ (us : List (World × Nat)) (o : ResolverObj), Settled o →
    ((CallsOnly us).foldl ResolverObj.after o).r = o.r ∧ Settled ((CallsOnly us).foldl ResolverObj.after o) ∧
    ((((CallsOnly us).foldl ResolverObj.after o).chains = o.chains ∧ ∀ u ∈ us, Obtains u.1 o.r → ∀ cs', o.r.chainsNoMeta u.1 u.2 ≠ .ok (some cs')) ∨
      ∃ pre u post, us = pre ++ u :: post ∧ Obtains u.1 o.r ∧ o.r.chainsNoMeta u.1 u.2 = .ok (some ((CallsOnly us).foldl ResolverObj.after o).chains) ∧
        ∀ v ∈ post, Obtains v.1 o.r → ∀ cs', o.r.chainsNoMeta v.1 v.2 ≠ .ok (some cs'))
  | [], o, ho => ⟨rfl, ho, .inl ⟨rfl, by intro u hu; cases hu⟩⟩
  | u :: us, o, ho => by
    show ((CallsOnly us).foldl ResolverObj.after (o.after (.call u.1 u.2))).r = o.r ∧ Settled ((CallsOnly us).foldl ResolverObj.after (o.after (.call u.1 u.2))) ∧
      ((((CallsOnly us).foldl ResolverObj.after (o.after (.call u.1 u.2))).chains = o.chains ∧ _) ∨
      ∃ pre u' post, u :: us = pre ++ u' :: post ∧ Obtains u'.1 o.r ∧
        o.r.chainsNoMeta u'.1 u'.2 = .ok (some ((CallsOnly us).foldl ResolverObj.after (o.after (.call u.1 u.2))).chains) ∧ _)
    have key : Settled (o.after (.call u.1 u.2)) ∧ (o.after (.call u.1 u.2)).r = o.r ∧
        ((Obtains u.1 o.r ∧ o.r.chainsNoMeta u.1 u.2 = .ok (some (o.after (.call u.1 u.2)).chains)) ∨
        ((Obtains u.1 o.r → ∀ cs', o.r.chainsNoMeta u.1 u.2 ≠ .ok (some cs')) ∧ (o.after (.call u.1 u.2)).chains = o.chains)) := by
      unfold ResolverObj.after
      dsimp only
      split
      · rename_i cs o' hc
        obtain ⟨h1, h2, h3⟩ := settled_call ho hc
        refine ⟨h1, h2, ?_⟩
        by_cases hb : Obtains u.1 o.r
        · refine .inl ⟨hb, ?_⟩
          rw [← call_fresh, ← call_obtained _ _ _ hb, hc, ← h3]; rfl
        · refine .inr ⟨fun h => absurd h hb, ?_⟩
          rw [call_unobtained _ _ _ hb] at hc
          simp only [Except.ok.injEq, Option.some.injEq, Prod.mk.injEq] at hc
          rw [← hc.2]
          unfold ResolverObj.chains ResolverObj.verifySignatures
          rw [ho]
      · rename_i hc
        refine ⟨ho, rfl, .inr ⟨?_, rfl⟩⟩
        intro hb cs' h
        rw [← call_fresh, ← call_obtained _ _ _ hb] at h
        cases hr : o.call u.1 u.2 with
        | error e => rw [hr] at h; cases h
        | ok y =>
          cases y with
          | none => rw [hr] at h; cases h
          | some y => exact hc y.1 y.2 hr
    obtain ⟨k1, k2, k3⟩ := key
    obtain ⟨i1, i2, i3⟩ := after_calls us _ k1
    rw [k2] at i1 i3
    refine ⟨i1, i2, ?_⟩
    rcases i3 with ⟨i4, i5⟩ | ⟨pre, w, post, rfl, i6, i7, i8⟩
    · rcases k3 with ⟨k4, k5⟩ | ⟨k4, k5⟩
      · exact .inr ⟨[], u, us, rfl, k4, by rw [i4]; exact k5, i5⟩
      · refine .inl ⟨i4.trans k5, ?_⟩
        intro v hv
        rcases List.mem_cons.mp hv with rfl | hv
        · exact k4
        · exact i5 v hv
    · exact .inr ⟨u :: pre, w, post, rfl, i6, i7, i8⟩

/-- **C118** (part): a resolver that is called again and again returns, in each call, what a new resolver would return in the world of the latest call (this one
included) in which the starting configuration was obtained, and nothing before that. In particular its chains are ones that resolution produced (so C01–C08 hold of them as of
then). Missing: that they are still valid. -/
theorem C118_history_partial (r : Resolver) (us : List (World × Nat)) (W : World) (fuel : Nat) (cs : List Chain) (o' : ResolverObj)
    (h : ((CallsOnly us).foldl ResolverObj.after (ResolverObj.fresh r)).call W fuel = .ok (some (cs, o'))) :
    LastObtained r (us ++ [(W, fuel)]) cs := by
  obtain ⟨h1, h2, h3⟩ := settled_call (after_calls us _ (settled_fresh r)).2.1 h
  have e : (CallsOnly (us ++ [(W, fuel)])).foldl ResolverObj.after (ResolverObj.fresh r) = o' := by
    unfold CallsOnly at h ⊢
    rw [List.map_append, List.foldl_append]
    simp only [List.map_cons, List.map_nil, List.foldl_cons, List.foldl_nil]
    show (match ((us.map fun u => ResolverUse.call u.1 u.2).foldl ResolverObj.after (ResolverObj.fresh r)).call W fuel with
      | .ok (some (_, o')) => o' | _ => _) = o'
    rw [h]
  have := (after_calls (us ++ [(W, fuel)]) _ (settled_fresh r)).2.2
  rw [e, ← h3] at this
  rcases this with ⟨h4, h5⟩ | h
  · refine .inl ⟨?_, h5⟩
    rw [h4]
    simp [ResolverObj.fresh, ResolverObj.chains, Tree.zero, Oidfed.chains]
  · exact .inr h

/-- Each chain that is returned was produced by resolution in the world of one of the calls. -/
theorem C118_produced_partial (r : Resolver) (us : List (World × Nat)) (W : World) (fuel : Nat) (cs : List Chain) (o' : ResolverObj)
    (h : ((CallsOnly us).foldl ResolverObj.after (ResolverObj.fresh r)).call W fuel = .ok (some (cs, o'))) (c : Chain) (hc : c ∈ cs) :
    ∃ W', (W' = W ∨ ∃ u ∈ us, W' = u.1) ∧ Produces W' r c := by
  rcases C118_history_partial r us W fuel cs o' h with ⟨rfl, _⟩ | ⟨pre, u, post, e, _, h2, _⟩
  · cases hc
  · have hu : u ∈ us ++ [(W, fuel)] := by rw [e]; simp
    refine ⟨u.1, ?_, u.2, cs, .inl h2, hc⟩
    rcases List.mem_append.mp hu with hu | hu
    · exact .inr ⟨u, hu, rfl⟩
    · rw [List.mem_singleton.mp hu]; exact .inl rfl

namespace ExU

/-- Later: the leaf's server does not answer, and everything has expired. -/
def later : World := { Ex.W with start := fun _ => none, nowEC := fun _ => 1000, nowSub := fun _ => 1000 }

/-- The resolver after the first call. -/
def used : ResolverObj := (ResolverObj.fresh Ex.R).after (.call Ex.W 5)

theorem again : ∃ o', used.call later 5 = .ok (some ([Ex.chainI, Ex.chainJ], o')) := ⟨_, rfl⟩

end ExU

/-- **C118 fails**: if the leaf's configuration is not obtained in a later call, the resolver returns the chains of an earlier one, although everything in them has
expired in the meantime; a new resolver returns nothing. -/
theorem C118_expired_refuted : ∃ (r : Resolver) (W W' : World) (fuel : Nat) (cs : List Chain) (o' : ResolverObj), cs ≠ [] ∧
    ((ResolverObj.fresh r).after (.call W fuel)).call W' fuel = .ok (some (cs, o')) ∧ r.chainsNoMeta W' fuel = .ok (some []) ∧
    ∀ c ∈ cs, ∀ s ∈ c, ∀ p, s.timeValid (W'.nowEC p) = false ∧ s.timeValid (W'.nowSub p) = false := by
  obtain ⟨o', h⟩ := ExU.again
  refine ⟨Ex.R, Ex.W, ExU.later, 5, _, o', by simp, h, rfl, ?_⟩
  intro c hc s hs p
  show s.timeValid 1000 = false ∧ s.timeValid 1000 = false
  revert s
  simp only [List.mem_cons, List.not_mem_nil, or_false] at hc
  rcases hc with rfl | rfl
  · show ∀ s ∈ [Ex.leafEC, Ex.mk "i" "l" (some [1]) 2, { Ex.mk "t" "i" (some [2]) 3 with constraints := some Ex.cons }, Ex.tEC], _
    intro s hs
    simp only [List.mem_cons, List.not_mem_nil, or_false] at hs
    rcases hs with rfl | rfl | rfl | rfl <;> exact ⟨rfl, rfl⟩
  · show ∀ s ∈ [Ex.leafEC, Ex.mk "j" "l" (some [1]) 2, { Ex.mk "t" "j" (some [2]) 3 with constraints := some Ex.cons }, Ex.tEC], _
    intro s hs
    simp only [List.mem_cons, List.not_mem_nil, or_false] at hs
    rcases hs with rfl | rfl | rfl | rfl <;> exact ⟨rfl, rfl⟩

/-- **C118 fails** for a resolver whose starting entity is changed: if the new one cannot be reached, it returns chains of the old one. -/
theorem C118_other_entity_refuted : ∃ (r : Resolver) (W : World) (fuel : Nat) (e : ID) (cs : List Chain) (o' : ResolverObj), cs ≠ [] ∧ W.start e = none ∧
    (([.call W fuel, .set { r with start := e }] : List ResolverUse).foldl ResolverObj.after (ResolverObj.fresh r)).call W fuel = .ok (some (cs, o')) ∧
    ∀ c ∈ cs, ∃ s, c.head? = some s ∧ s.sub ≠ e ∧ s.iss ≠ e := by
  refine ⟨Ex.R, Ex.W, 5, "nobody", [Ex.chainI, Ex.chainJ], _, by simp, rfl, rfl, ?_⟩
  intro c hc
  simp only [List.mem_cons, List.not_mem_nil, or_false] at hc
  rcases hc with rfl | rfl <;> exact ⟨Ex.leafEC, rfl, by decide, by decide⟩

/-- **C118 fails** for a resolver whose trust anchors are changed: if the leaf's configuration is not obtained it returns chains that end at an anchor that is no
longer trusted. -/
theorem C118_other_anchor_refuted : ∃ (r : Resolver) (W W' : World) (fuel : Nat) (cs : List Chain) (o' : ResolverObj), cs ≠ [] ∧
    (([.call W fuel, .set { r with anchors := [] }] : List ResolverUse).foldl ResolverObj.after (ResolverObj.fresh r)).call W' fuel = .ok (some (cs, o')) :=
  ⟨Ex.R, Ex.W, ExU.later, 5, [Ex.chainI, Ex.chainJ], _, by simp, rfl⟩

/-- A resolver used for another entity and with other anchors before resolves as a new one. -/
example : Obtains Ex.W (([.set { Ex.R with start := "i", anchors := [] }, .call Ex.W 5, .set Ex.R] : List ResolverUse).foldl ResolverObj.after (ResolverObj.fresh Ex.R)).r ∧
    ((([.set { Ex.R with start := "i", anchors := [] }, .call Ex.W 5, .set Ex.R] : List ResolverUse).foldl ResolverObj.after (ResolverObj.fresh Ex.R)).call Ex.W 5).map
      (fun x => x.map Prod.fst) = .ok (some [Ex.chainI, Ex.chainJ]) :=
  ⟨⟨by decide, _, rfl⟩, (C118_obtained_partial _ _ Ex.W 5 ⟨by decide, _, rfl⟩).trans Ex.run⟩

/-- A history of three calls; in the second nothing is obtained. -/
example : ∃ o', ((CallsOnly [(Ex.W, 5), (ExU.later, 5)]).foldl ResolverObj.after (ResolverObj.fresh Ex.R)).call Ex.W 5 = .ok (some ([Ex.chainI, Ex.chainJ], o')) ∧
    LastObtained Ex.R [(Ex.W, 5), (ExU.later, 5), (Ex.W, 5)] [Ex.chainI, Ex.chainJ] := by
  refine ⟨_, rfl, C118_history_partial Ex.R [(Ex.W, 5), (ExU.later, 5)] Ex.W 5 _ _ rfl⟩

/-- The steps one by one, on a resolver that was used before. -/
example : (([.call ExU.later 5, .resolve Ex.W 5, .verify Ex.W] : List ResolverUse).foldl ResolverObj.after (ResolverObj.fresh Ex.R)).chains = [Ex.chainI, Ex.chainJ] :=
  C118_steps_partial [.call ExU.later 5] _ Ex.W 5 _ ⟨by decide, _, rfl⟩ Ex.run

end Oidfed
