import Verif.Lemmas.TrustMark
import Verif.Spec.MarkReuse
/-!
# Lemmas on trust mark objects over several uses
-/

namespace Oidfed
open Spec

theorem run_append (R : JWTReader) (i : Info) (us vs : List InfoUse) : i.run R (us ++ vs) = (i.run R us).run R vs := by
  induction us generalizing i with
  | nil => rfl
  | cons u us ih => exact ih _

/-- The object has a parsed mark with a message. -/
def Filled (i : Info) : Prop := ∃ m, i.cached = some m ∧ m.raw.isSome = true

/-- The object behaves like one with the JWT `j`. -/
def ActsAs (R : JWTReader) (j : String) (i : Info) : Prop := Filled i ∧ InfoOk R { i with jwt := j }

theorem trustMark_filled {R : JWTReader} {i : Info} {m : Mark} (h : i.cached = some m) (hr : m.raw.isSome = true) : i.trustMark R = (some m, i) := by
  unfold Info.trustMark
  simp [h, hr]

theorem external_filled {R : JWTReader} {sig : SigOracle} {nowM nowD : Time} {keys : Keys} {owners : List Owner} {i : Info} (j : String) (h : Filled i) :
    (i.verifyExternal R sig nowM nowD keys owners).1 = (({ i with jwt := j } : Info).verifyExternal R sig nowM nowD keys owners).1 ∧
    ({ (i.verifyExternal R sig nowM nowD keys owners).2 with jwt := j } : Info) = (({ i with jwt := j } : Info).verifyExternal R sig nowM nowD keys owners).2 := by
  obtain ⟨m, h1, h2⟩ := h
  unfold Info.verifyExternal
  rw [trustMark_filled h1 h2, trustMark_filled (i := { i with jwt := j }) h1 h2]
  simp only
  split <;> exact ⟨rfl, rfl⟩

theorem federation_filled {R : JWTReader} {sig : SigOracle} {nowM nowD : Time} {keysFor : ID → Option (Res Keys)} {ta : MarkAnchor} {i : Info} (j : String)
    (h : Filled i) :
    ({ i with jwt := j } : Info).verifyFederation R sig nowM nowD keysFor ta =
      (i.verifyFederation R sig nowM nowD keysFor ta).map (fun r => r.map (fun x => (x.1, { x.2 with jwt := j }))) := by
  obtain ⟨m, h1, h2⟩ := h
  unfold Info.verifyFederation
  rw [trustMark_filled h1 h2, trustMark_filled (i := { i with jwt := j }) h1 h2]
  simp only
  split
  · rfl
  · cases m.verifyFederation R sig nowM nowD keysFor ta with
    | none => rfl
    | some r => cases r <;> rfl

theorem markVerify_raw {R : JWTReader} {sig : SigOracle} {nowM nowD : Time} {keys : Keys} {owners : List Owner} {m : Mark} :
    (m.verifyExternal R sig nowM nowD keys owners).2.raw = m.raw := by
  have hd : (m.getDelegation R).2.raw = m.raw := by
    unfold Mark.getDelegation
    split
    · rfl
    · split
      · rfl
      · split <;> rfl
  unfold Mark.verifyExternal
  split
  · rfl
  · split
    · rfl
    · cases owners with
      | nil => rfl
      | cons o os =>
        simp only
        split
        · rename_i h; rw [h] at hd; exact hd
        · rename_i h; rw [h] at hd; exact hd
        · rename_i h
          rw [h] at hd
          split
          · exact hd
          · split
            · exact hd
            · split <;> exact hd

theorem filled_after {R : JWTReader} {i : Info} (h : Filled i) (u : InfoUse) : Filled (i.after R u) := by
  have h' := h
  obtain ⟨m, h1, h2⟩ := h
  have ht : i.trustMark R = (some m, i) := trustMark_filled h1 h2
  cases u with
  | set type jwt extra => exact ⟨m, h1, h2⟩
  | decode v =>
    show Filled ((i.decode v).getD i)
    cases hd : i.decode v with
    | none => exact h'
    | some i' =>
      refine ⟨m, ?_, h2⟩
      cases v with
      | null => cases hd; exact h1
      | obj l =>
        simp only [Info.decode] at hd
        split at hd
        · cases hd
        · cases hd; exact h1
      | _ => cases hd
  | get => show Filled (i.trustMark R).2; rw [ht]; exact h'
  | external sig nowM nowD keys owners =>
    show Filled (i.verifyExternal R sig nowM nowD keys owners).2
    unfold Info.verifyExternal
    rw [ht]
    simp only
    split
    · exact h'
    · exact ⟨_, rfl, by rw [markVerify_raw]; exact h2⟩
  | federation sig nowM nowD keysFor ta =>
    show Filled (match i.verifyFederation R sig nowM nowD keysFor ta with
      | some (.ok (_, i')) => i'
      | _ => (i.trustMark R).2)
    split
    · rename_i b i' hv
      unfold Info.verifyFederation at hv
      rw [ht] at hv
      simp only at hv
      split at hv
      · cases hv; exact h'
      · unfold Mark.verifyFederation at hv
        split at hv
        · cases hv
        · cases hv
        · rename_i b' m' hm
          cases hv
          refine ⟨m', rfl, ?_⟩
          split at hm
          · cases hm; exact h2
          · split at hm
            · cases hm
            · cases hm
            · cases hm; exact h2
            · simp only [Option.some.injEq, Except.ok.injEq] at hm
              have := congrArg (fun x => x.2.raw) hm
              simp only [markVerify_raw] at this
              rw [← this]; exact h2
    · rw [ht]; exact h'

theorem decode_cached {i i' : Info} {v : JV} (h : i.decode v = some i') : i'.cached = i.cached := by
  cases v with
  | null => cases h; rfl
  | obj l =>
    simp only [Info.decode] at h
    split at h
    · cases h
    · cases h; rfl
  | _ => cases h

theorem infoOk_cached {R : JWTReader} {i i' : Info} (h : InfoOk R i) (hc : i'.cached = i.cached) (hj : i'.jwt = i.jwt) : InfoOk R i' := by
  intro m hm hr
  rw [hj]
  exact h m (hc ▸ hm) hr

theorem trustMark_ok {R : JWTReader} {i : Info} (h : InfoOk R i) : InfoOk R (i.trustMark R).2 ∧ (i.trustMark R).2.jwt = i.jwt := by
  rcases trustMark_spec h with ⟨_, _, h3⟩ | ⟨m, p, _, h2, h3, h4, h5⟩
  · rw [h3]; exact ⟨h, rfl⟩
  · rw [h5]; exact ⟨infoOk_set h2 h3 h4, rfl⟩

/-- Uses that leave the JWT keep the object in order. -/
theorem infoOk_after {R : JWTReader} {i : Info} (h : InfoOk R i) (u : InfoUse) (hj : (i.after R u).jwt = i.jwt) : InfoOk R (i.after R u) := by
  cases u with
  | set type jwt extra => exact infoOk_cached h rfl hj
  | decode v =>
    refine infoOk_cached h ?_ hj
    show ((i.decode v).getD i).cached = i.cached
    cases hd : i.decode v with
    | none => rfl
    | some i' => exact decode_cached hd
  | get => exact (trustMark_ok h).1
  | external sig nowM nowD keys owners => exact (infoExternal_spec h).2.1
  | federation sig nowM nowD keysFor ta =>
    show InfoOk R (match i.verifyFederation R sig nowM nowD keysFor ta with
      | some (.ok (_, i')) => i'
      | _ => (i.trustMark R).2)
    split
    · rename_i hv; exact (infoFederation_spec h hv).2.1
    · exact (trustMark_ok h).1

/-- Asking for the mark leaves the JWT. -/
theorem asks_jwt {R : JWTReader} {i : Info} (u : InfoUse) (hu : AsksMark u) : (i.after R u).jwt = i.jwt := by
  have ht : (i.trustMark R).2.jwt = i.jwt := by
    unfold Info.trustMark
    split
    · split
      · rfl
      · split <;> rfl
    · split <;> rfl
  cases u with
  | set => exact hu.elim
  | decode => exact hu.elim
  | get => exact ht
  | external sig nowM nowD keys owners =>
    show (i.verifyExternal R sig nowM nowD keys owners).2.jwt = i.jwt
    unfold Info.verifyExternal
    split
    · rename_i h; rw [h] at ht; exact ht
    · rename_i h
      rw [h] at ht
      split
      · exact ht
      · exact ht
  | federation sig nowM nowD keysFor ta =>
    show (match i.verifyFederation R sig nowM nowD keysFor ta with
      | some (.ok (_, i')) => i'
      | _ => (i.trustMark R).2).jwt = i.jwt
    split
    · rename_i b i' hv
      unfold Info.verifyFederation at hv
      split at hv
      · rename_i h; rw [h] at ht; cases hv; exact ht
      · rename_i h
        rw [h] at ht
        split at hv
        · cases hv; exact ht
        · split at hv
          · cases hv
          · cases hv
          · cases hv; exact ht
    · exact ht

/-- An object that acts as one with the JWT `j` goes on doing so. -/
theorem actsAs_after {R : JWTReader} {j : String} {i : Info} (h : ActsAs R j i) (u : InfoUse) : ActsAs R j (i.after R u) := by
  obtain ⟨hf, hok⟩ := h
  refine ⟨filled_after hf u, ?_⟩
  have hf' := hf
  obtain ⟨m, h1, h2⟩ := hf'
  have ht : i.trustMark R = (some m, i) := trustMark_filled h1 h2
  cases u with
  | set type jwt extra => exact infoOk_cached hok rfl rfl
  | decode v =>
    refine infoOk_cached hok ?_ rfl
    show ((i.decode v).getD i).cached = i.cached
    cases hd : i.decode v with
    | none => rfl
    | some i' => exact decode_cached hd
  | get => show InfoOk R { (i.trustMark R).2 with jwt := j }; rw [ht]; exact hok
  | external sig nowM nowD keys owners =>
    show InfoOk R { (i.verifyExternal R sig nowM nowD keys owners).2 with jwt := j }
    rw [(external_filled j hf).2]
    exact (infoExternal_spec hok).2.1
  | federation sig nowM nowD keysFor ta =>
    show InfoOk R { (match i.verifyFederation R sig nowM nowD keysFor ta with
      | some (.ok (_, i')) => i'
      | _ => (i.trustMark R).2) with jwt := j }
    have hfed := federation_filled (R := R) (sig := sig) (nowM := nowM) (nowD := nowD) (keysFor := keysFor) (ta := ta) j hf
    split
    · rename_i b i' hv
      rw [hv] at hfed
      exact (infoFederation_spec hok hfed).2.1
    · rw [ht]; exact hok

theorem actsAs_run {R : JWTReader} {j : String} {i : Info} (h : ActsAs R j i) (us : List InfoUse) : ActsAs R j (i.run R us) := by
  induction us generalizing i with
  | nil => exact h
  | cons u us ih => exact ih (actsAs_after h u)

/-- Without a parsed mark every object is in order. -/
theorem infoOk_unfilled {R : JWTReader} {i : Info} (h : ¬ Filled i) : InfoOk R i := by
  intro m hm hr
  refine absurd ⟨m, hm, ?_⟩ h
  cases hr' : m.raw with
  | none => exact absurd hr' hr
  | some r => rfl

/-- An object always acts as one with a JWT that it held at some moment. -/
theorem acts_past {R : JWTReader} {i : Info} (h : InfoOk R i) (us : List InfoUse) :
    InfoOk R (i.run R us) ∨ ∃ pre post, us = pre ++ post ∧ ActsAs R (i.run R pre).jwt (i.run R us) := by
  induction us generalizing i with
  | nil => exact .inl h
  | cons u us ih =>
    by_cases hf : Filled i
    · right
      exact ⟨[], u :: us, rfl, actsAs_run (j := i.jwt) ⟨hf, infoOk_cached h rfl rfl⟩ _⟩
    · have hok : InfoOk R (i.after R u) := by
        by_cases hw : AsksMark u
        · exact infoOk_after h u (asks_jwt u hw)
        · apply infoOk_unfilled
          rintro ⟨m, h1, h2⟩
          refine hf ⟨m, ?_, h2⟩
          cases u with
          | set => exact h1
          | decode v =>
            have h1 : ((i.decode v).getD i).cached = some m := h1
            cases hd : i.decode v with
            | none => rw [hd] at h1; exact h1
            | some i' => rw [hd] at h1; rw [← decode_cached hd]; exact h1
          | _ => exact absurd trivial hw
      rcases ih hok with h' | ⟨pre, post, e, ha⟩
      · exact .inl h'
      · exact .inr ⟨u :: pre, post, by rw [e]; rfl, ha⟩

theorem actsAs_external {R : JWTReader} {j : String} {i : Info} (h : ActsAs R j i) (sig : SigOracle) (nowM nowD : Time) (keys : Keys) (owners : List Owner) :
    (i.verifyExternal R sig nowM nowD keys owners).1 = true ↔ InfoAccepted R sig nowM nowD keys owners.head? { i with jwt := j } := by
  rw [(external_filled j h.1).1]
  exact (infoExternal_spec h.2).1

theorem federationAccepted_iff {R : JWTReader} {i : Info} (h : InfoOk R i) (sig : SigOracle) (nowM nowD : Time) (keysFor : ID → Option (Res Keys)) (ta : MarkAnchor)
    (b : Bool) (i' : Info) (hv : i.verifyFederation R sig nowM nowD keysFor ta = some (.ok (b, i'))) :
    b = true ↔ FederationAccepted R sig nowM nowD keysFor ta i := (infoFederation_spec h hv).1

theorem actsAs_federation {R : JWTReader} {j : String} {i : Info} (h : ActsAs R j i) (sig : SigOracle) (nowM nowD : Time) (keysFor : ID → Option (Res Keys))
    (ta : MarkAnchor) (b : Bool) (i' : Info) (hv : i.verifyFederation R sig nowM nowD keysFor ta = some (.ok (b, i'))) :
    b = true ↔ FederationAccepted R sig nowM nowD keysFor ta { i with jwt := j } := by
  have hfed := federation_filled (R := R) (sig := sig) (nowM := nowM) (nowD := nowD) (keysFor := keysFor) (ta := ta) j h.1
  rw [hv] at hfed
  exact (infoFederation_spec h.2 hfed).1

/-- Asking a fresh object whose JWT is a trust mark fixes the mark. -/
theorem actsAs_asked {R : JWTReader} {i : Info} (h : InfoOk R i) (p : Mark) (hp : parseMark R i.jwt = some p) (u : InfoUse) (hu : AsksMark u) :
    ActsAs R i.jwt (i.after R u) := by
  have hj := asks_jwt (R := R) (i := i) u hu
  have hok := infoOk_after h u hj
  refine ⟨?_, infoOk_cached hok rfl hj.symm⟩
  have ht : ∃ m, i.trustMark R = (some m, { i with cached := some m }) ∧ m.raw.isSome = true := by
    rcases trustMark_spec h with ⟨_, h2, _⟩ | ⟨m, q, h1, h2, h3, h4, h5⟩
    · rw [hp] at h2; cases h2
    · refine ⟨m, Prod.ext h1 h5, ?_⟩
      have := (parseMark_raw h2).1
      rw [h3] at this
      cases hr : m.raw with
      | none => exact absurd hr this
      | some r => rfl
  obtain ⟨m, ht, hr⟩ := ht
  cases u with
  | set => exact hu.elim
  | decode => exact hu.elim
  | get => show Filled (i.trustMark R).2; rw [ht]; exact ⟨m, rfl, hr⟩
  | external sig nowM nowD keys owners =>
    show Filled (i.verifyExternal R sig nowM nowD keys owners).2
    unfold Info.verifyExternal
    rw [ht]
    simp only
    split
    · exact ⟨m, rfl, hr⟩
    · exact ⟨_, rfl, by rw [markVerify_raw]; exact hr⟩
  | federation sig nowM nowD keysFor ta =>
    have hfill : Filled ({ i with cached := some m } : Info) := ⟨m, rfl, hr⟩
    have e : i.verifyFederation R sig nowM nowD keysFor ta = ({ i with cached := some m } : Info).verifyFederation R sig nowM nowD keysFor ta := by
      unfold Info.verifyFederation
      rw [ht, trustMark_filled (i := { i with cached := some m }) rfl hr]
    have := filled_after (R := R) hfill (.federation sig nowM nowD keysFor ta)
    simp only [Info.after] at this ⊢
    rw [e, ht]
    rw [trustMark_filled (i := { i with cached := some m }) rfl hr] at this
    exact this

/-- A fresh object whose JWT is not changed after the first question stays in order. -/
theorem steady_ok {R : JWTReader} {i : Info} {writes uses : List InfoUse} (hi : i.cached = none) (hw : ∀ u ∈ writes, IsWrite u)
    (hs : JWTStays R (i.run R writes) uses) : InfoOk R (i.run R (writes ++ uses)) := by
  rw [run_append]
  have h0 : (i.run R writes).cached = none := by
    clear hs
    induction writes generalizing i with
    | nil => exact hi
    | cons u us ih =>
      refine ih ?_ (fun v hv => hw v (List.mem_cons_of_mem _ hv))
      have := hw u List.mem_cons_self
      cases u with
      | set => exact hi
      | decode v =>
        show ((i.decode v).getD i).cached = none
        cases hd : i.decode v with
        | none => exact hi
        | some i' => exact (decode_cached hd).trans hi
      | _ => exact this.elim
  have h1 : InfoOk R (i.run R writes) := by intro m hm; rw [h0] at hm; cases hm
  generalize i.run R writes = j at hs h1
  clear h0 hw hi
  induction uses generalizing j with
  | nil => exact h1
  | cons u us ih =>
    have hj : (j.after R u).jwt = j.jwt := hs [u] us rfl
    refine ih (j.after R u) ?_ (infoOk_after h1 u hj)
    intro pre post e
    rw [hj]
    exact hs (u :: pre) post (by rw [e]; rfl)

end Oidfed
