import Verif.Lemmas.Chains
/-!
# Lemmas: the chains collected from a tree differ from each other

Chains found over different authorities differ in their second statement, which is the one the authority issued.
-/

namespace Oidfed

/-- all chains of a node that has a subordinate statement begin with it -/
theorem chains_head (T : Tree) (s : Stmt) (h : T.sub? = some s) : ∀ c ∈ chains T, ∃ r, c = s :: r := by
  cases T with
  | node e s' n as v x d ty ids =>
    change s' = some s at h
    subst h
    intro c hc
    cases n with
    | true => cases e <;> (simp only [chains, List.mem_singleton] at hc; exact ⟨_, hc⟩)
    | false =>
      have hc' : c ∈ chainsList s as := by cases e <;> simpa only [chains] using hc
      clear hc
      induction as with
      | nil => simp [chainsList] at hc'
      | cons a as ih =>
        simp only [chainsList, List.mem_append, List.mem_map] at hc'
        rcases hc' with ⟨r, _, rfl⟩ | h
        · exact ⟨r, rfl⟩
        · exact ih h

theorem mem_chainsList {x : Stmt} {c : Chain} : ∀ {us : List Tree}, c ∈ chainsList x us →
    ∃ u ∈ us, ∃ c' ∈ chains u, c = x :: c' := by
  intro us
  induction us with
  | nil => intro h; simp [chainsList] at h
  | cons v us ih =>
    intro h
    simp only [chainsList, List.mem_append, List.mem_map] at h
    rcases h with ⟨d', h, rfl⟩ | h
    · exact ⟨v, List.mem_cons_self, d', h, rfl⟩
    · obtain ⟨w, hw, r⟩ := ih h
      exact ⟨w, List.mem_cons_of_mem _ hw, r⟩

theorem chainsList_pairwise (x : Stmt) (R R' : Chain → Chain → Prop) (hR : ∀ c d, R' c d → R (x :: c) (x :: d)) :
    ∀ (us : List Tree), (∀ u ∈ us, (chains u).Pairwise R') →
    us.Pairwise (fun a b => ∀ c ∈ chains a, ∀ d ∈ chains b, R' c d) → (chainsList x us).Pairwise R := by
  intro us
  induction us with
  | nil => intro _ _; simp [chainsList]
  | cons u us ih =>
    intro h1 h2
    rw [List.pairwise_cons] at h2
    simp only [chainsList]
    rw [List.pairwise_append]
    refine ⟨?_, ih (fun v hv => h1 v (List.mem_cons_of_mem _ hv)) h2.2, ?_⟩
    · rw [List.pairwise_map]
      exact (h1 u List.mem_cons_self).imp (fun h => hR _ _ h)
    · intro c hc d hd
      rw [List.mem_map] at hc
      obtain ⟨c', hc', rfl⟩ := hc
      obtain ⟨v, hv, d', hd', rfl⟩ := mem_chainsList hd
      exact hR _ _ (h2.1 v hv c' hc' d' hd')

theorem verifyAuths_sublist (sig A) (e s : Option Stmt) : ∀ (ts : List Tree),
    (verifyAuths sig A e s ts).Sublist (ts.map (verifySigs sig A)) := by
  intro ts
  induction ts with
  | nil => simp [verifyAuths]
  | cons tt ts ih =>
    rw [verifyAuths, List.map_cons]
    split
    · rename_i heq
      rw [heq]
      split
      · exact ih.cons_cons _
      · exact ih.cons _
    · exact ih.cons _

theorem chains_zero (sig A) : chains (verifySigs sig A Tree.zero) = [] := by
  simp [Tree.zero, verifySigs, verifyAuths, chains]

/-- the chains above the `j`-th authority begin with the statement it issued -/
theorem auths_head {W A fuel p t e0 ts e'}
    (h1 : resolveHints W (resolve W A fuel) t p 0 t.entity.hints e0 = some (ts, e'))
    (j : Nat) (hj : j < ts.length) :
    ∀ c ∈ chains (verifySigs W.sig A ts[j]), ∃ sb r, c = sb :: r ∧ t.entity.hints[j]? = some sb.iss ∧ sb.sub = t.entity.iss := by
  obtain ⟨hlen, hspec⟩ := resolveHints_spec W _ t p _ _ _ _ _ h1
  have hjl : j < t.entity.hints.length := by rw [← hlen]; exact hj
  have ha : t.entity.hints[j]? = some t.entity.hints[j] := by simp [hjl]
  obtain ⟨hz, hg⟩ := hspec j _ ha
  cases hh : hintStmts W t (p ++ [0 + j]) t.entity.hints[j] with
  | none =>
    have hz := hz hh
    rw [List.getElem?_eq_getElem hj] at hz
    rw [show ts[j] = Tree.zero from Option.some.inj hz, chains_zero]
    simp
  | some es =>
    obtain ⟨ec, sb⟩ := es
    obtain ⟨tt, ht1, ht2⟩ := hg ec sb hh
    rw [List.getElem?_eq_getElem hj] at ht1
    rw [show ts[j] = tt from Option.some.inj ht1]
    obtain ⟨_, _, i3, i4⟩ := hintStmts_iss hh
    intro c hc
    obtain ⟨r, rfl⟩ := chains_head _ sb (by rw [verifySigs_sub, resolve_sub ht2]; rfl) c hc
    exact ⟨sb, r, rfl, by rw [ha, i3], i4⟩

/-- the authorities of a node whose configuration names none twice -/
theorem auths_nodup {W A fuel p t e0 ts e'} (x : Stmt)
    (ih : ∀ (p : Pos) (t : Pending) (T : Tree), resolve W A fuel p t = some T → t.entity.hints.Nodup →
      (chains (verifySigs W.sig A T)).Nodup)
    (hec : ∀ (p : Pos) (a : ID) (s : Stmt), W.ec p a = some s → s.hints.Nodup)
    (h1 : resolveHints W (resolve W A fuel) t p 0 t.entity.hints e0 = some (ts, e'))
    (hn : t.entity.hints.Nodup) (e s : Option Stmt) :
    (chainsList x (verifyAuths W.sig A e s ts)).Nodup := by
  obtain ⟨hlen, hspec⟩ := resolveHints_spec W _ t p _ _ _ _ _ h1
  have key : ∀ j (hj : j < ts.length), (chains (verifySigs W.sig A ts[j])).Nodup := by
    intro j hj
    have hjl : j < t.entity.hints.length := by rw [← hlen]; exact hj
    have ha : t.entity.hints[j]? = some t.entity.hints[j] := by simp [hjl]
    obtain ⟨hz, hg⟩ := hspec j _ ha
    cases hh : hintStmts W t (p ++ [0 + j]) t.entity.hints[j] with
    | none =>
      have hz := hz hh
      rw [List.getElem?_eq_getElem hj] at hz
      rw [show ts[j] = Tree.zero from Option.some.inj hz, chains_zero]
      simp
    | some es =>
      obtain ⟨ec, sb⟩ := es
      obtain ⟨tt, ht1, ht2⟩ := hg ec sb hh
      rw [List.getElem?_eq_getElem hj] at ht1
      rw [show ts[j] = tt from Option.some.inj ht1]
      exact ih _ _ _ ht2 (hec _ _ _ (hintStmts_iff.mp hh).2.1)
  have hsubl := verifyAuths_sublist W.sig A e s ts
  refine chainsList_pairwise x _ (· ≠ ·) (fun c d h he => h (by simpa using he)) _ ?_ ?_
  · intro u hu
    have := hsubl.subset hu
    rw [List.mem_map] at this
    obtain ⟨tt, htt, rfl⟩ := this
    obtain ⟨j, hj, rfl⟩ := List.mem_iff_getElem.mp htt
    exact key j hj
  · refine List.Pairwise.sublist hsubl ?_
    rw [List.pairwise_map, List.pairwise_iff_getElem]
    intro i j hi hj hij c hc d hd hcd
    obtain ⟨sb, r, rfl, hs, _⟩ := auths_head h1 i hi c hc
    obtain ⟨sb', r', rfl, hs', _⟩ := auths_head h1 j hj d hd
    cases hcd
    have hjl : j < t.entity.hints.length := by rw [← hlen]; exact hj
    have hil : i < t.entity.hints.length := by rw [← hlen]; exact hi
    rw [List.getElem?_eq_getElem hil] at hs
    rw [List.getElem?_eq_getElem hjl] at hs'
    unfold List.Nodup at hn
    rw [List.pairwise_iff_getElem] at hn
    exact hn i j hil hjl hij (by rw [Option.some.inj hs, Option.some.inj hs'])

/-- the chains through the authorities come in the order of the hints -/
theorem chainsList_order {sig A} {Q : Nat → Stmt → Prop} (x : Stmt) (e s : Option Stmt) : ∀ (ts : List Tree) (n : Nat),
    (∀ (j : Nat) (tt : Tree), ts[j]? = some tt → ∀ c ∈ chains (verifySigs sig A tt),
      ∃ sb r, c = sb :: r ∧ Q (n + j) sb) →
    ∃ ps : List Nat, ps.Pairwise (· ≤ ·) ∧ (∀ p ∈ ps, n ≤ p) ∧
      ps.length = (chainsList x (verifyAuths sig A e s ts)).length ∧
      ∀ (k : Nat) (c : Chain) (p : Nat), (chainsList x (verifyAuths sig A e s ts))[k]? = some c → ps[k]? = some p →
        ∃ sb r, c = x :: sb :: r ∧ Q p sb := by
  intro ts
  induction ts with
  | nil => intro n _; exact ⟨[], by simp, by simp, by simp [verifyAuths, chainsList], by simp⟩
  | cons tt ts ih =>
    intro n h
    obtain ⟨ps, p1, p2, p3, p4⟩ := ih (n + 1) (fun j tt hj c hc => by
      have := h (j + 1) tt (by simpa using hj) c hc
      rwa [show n + (j + 1) = n + 1 + j by omega] at this)
    have h0 := h 0 tt rfl
    have skip : ∃ ps : List Nat, ps.Pairwise (· ≤ ·) ∧ (∀ p ∈ ps, n ≤ p) ∧
      ps.length = (chainsList x (verifyAuths sig A e s ts)).length ∧
      ∀ (k : Nat) (c : Chain) (p : Nat), (chainsList x (verifyAuths sig A e s ts))[k]? = some c → ps[k]? = some p →
        ∃ sb r, c = x :: sb :: r ∧ Q p sb :=
      ⟨ps, p1, fun p hp => by have := p2 p hp; omega, p3, p4⟩
    rw [verifyAuths]
    split
    · rename_i heq
      split
      · rw [← heq]
        simp only [chainsList]
        refine ⟨List.replicate (chains (verifySigs sig A tt)).length n ++ ps, ?_, ?_, by simp [p3], ?_⟩
        · rw [List.pairwise_append]
          refine ⟨List.pairwise_replicate.mpr (.inr (Nat.le_refl _)), p1, ?_⟩
          intro a ha b hb
          rw [List.mem_replicate] at ha
          have := p2 b hb
          omega
        · intro p hp
          rw [List.mem_append, List.mem_replicate] at hp
          rcases hp with ⟨_, rfl⟩ | hp
          · exact Nat.le_refl _
          · have := p2 p hp; omega
        · intro k c p hk hp
          by_cases hlt : k < (chains (verifySigs sig A tt)).length
          · rw [List.getElem?_append_left (by simpa using hlt)] at hk hp
            simp only [List.getElem?_replicate, hlt, if_true, Option.some.injEq] at hp
            subst hp
            rw [List.getElem?_map, Option.map_eq_some_iff] at hk
            obtain ⟨c', hc', rfl⟩ := hk
            obtain ⟨sb, r, rfl, hs⟩ := h0 c' (List.mem_of_getElem? hc')
            exact ⟨sb, r, rfl, hs⟩
          · rw [List.getElem?_append_right (by simpa using hlt)] at hk hp
            simp only [List.length_map, List.length_replicate] at hk hp
            exact p4 _ c p hk hp
      · exact skip
    · exact skip

theorem chains_true_nodup (e s as v x d ty ids) : (chains (.node e s true as v x d ty ids)).Nodup := by
  cases e <;> cases s <;> simp [chains]

theorem node_nodup {W A}
    (hec : ∀ (p : Pos) (a : ID) (s : Stmt), W.ec p a = some s → s.hints.Nodup) : ∀ (fuel : Nat)
    (p : Pos) (t : Pending) (T : Tree), resolve W A fuel p t = some T → t.entity.hints.Nodup →
      (chains (verifySigs W.sig A T)).Nodup := by
  intro fuel
  induction fuel with
  | zero => intro p t T h; simp [resolve] at h
  | succ fuel ih =>
    intro p t T h hn
    unfold resolve at h
    simp only at h
    have pres : ∀ e s as x d ty ids,
        (chains (verifySigs W.sig A (.node e s true as false x d ty ids))).Nodup := by
      intro e s as x d ty ids
      unfold verifySigs
      simp only [Bool.false_eq_true, if_false]
      split
      · split <;> exact chains_true_nodup ..
      · exact chains_true_nodup ..
    split at h
    · cases h; exact pres ..
    · rename_i hna
      simp only [Option.bind_eq_bind, Option.bind_eq_some_iff] at h
      obtain ⟨⟨ts, e⟩, h1, h2⟩ := h
      simp only [Option.some.injEq] at h2
      subst h2
      cases hh : t.entity.hints.isEmpty with
      | true => exact pres ..
      | false =>
        cases hs : t.subordinate with
        | none =>
          simp only [verifySigs, Bool.false_eq_true, if_false, chains]
          exact auths_nodup _ ih hec h1 hn _ _
        | some s0 =>
          have hm : matchingAnchor A t.entity s0 = none := by
            unfold matchingAnchor
            rw [List.find?_eq_none]
            intro a ha hh
            apply hna
            simp only [Bool.and_eq_true, beq_iff_eq] at hh
            simp only [anchorIDs, List.contains_iff_mem, List.mem_map]
            exact ⟨a, ha, hh.1.1⟩
          simp only [verifySigs, Bool.false_eq_true, if_false, hm, chains]
          exact auths_nodup _ ih hec h1 hn _ _

/-- filtering keeps the order -/
theorem filterValidMetadata_sublist : ∀ (cs rs : List Chain), filterValidMetadata cs = .ok rs → rs.Sublist cs := by
  intro cs
  induction cs with
  | nil => intro rs h; simp [filterValidMetadata] at h; subst h; exact .refl _
  | cons x xs ih =>
    intro rs h
    unfold filterValidMetadata at h
    split at h
    · simp at h
    · exact (ih _ h).cons _
    · cases hf : filterValidMetadata xs with
      | error e => rw [hf] at h; simp [bind, Except.bind] at h
      | ok ys =>
        rw [hf] at h
        simp [bind, Except.bind] at h
        subst h
        exact (ih _ hf).cons_cons _

end Oidfed
