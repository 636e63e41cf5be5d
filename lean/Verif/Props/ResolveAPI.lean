import Verif.Spec.ResolveAPI
import Verif.Model.CollectJSON
import Verif.Props.ResolveJSON
import Verif.Props.MetaResolver
/-!
# C123, C124: resolving metadata only, and error responses
-/

namespace Oidfed
open Spec

/-! ## C123 -/

/-- **C123**: if the local resolver returns a response, `Resolve` returns its metadata; if `Resolve` fails, so does the response. -/
theorem C123_local (E : Env) (rec : CallPos → Req → Option (Res Payload)) (p : CallPos) (q : Req) :
    (∀ r, localPayload E rec p q = some (.ok r) → localResolve E p q = some (.ok r.metadata)) ∧
    (∀ f, localResolve E p q = some (.error f) → localPayload E rec p q = some (.error f)) := by
  unfold localPayload localResolve
  cases hc : localChain E p q with
  | none => simp
  | some x =>
    cases x with
    | error f => simp
    | ok cm =>
      obtain ⟨c, m⟩ := cm
      refine ⟨?_, by intro f h; cases h⟩
      intro r h
      simp only at h
      split at h
      · split at h
        · cases h
        · cases h
        · cases h; rfl
      · cases h

/-- **C123**: `Resolve` of the local resolver does not depend on trust marks at all: nothing that an entity, a trust mark issuer or an endpoint says about them can make
it fail, panic or run forever. -/
theorem C123_local_ignores_marks (E E' : Env) (p : CallPos) (q : Req) (hw : E.world p = E'.world p) (hd : E.depth = E'.depth)
    (hs : E.swaps p = E'.swaps p) : localResolve E p q = localResolve E' p q := by
  unfold localResolve localChain
  rw [hw, hd, hs]

/-- **C123**: for the remote resolvers, `Resolve` and `ResolveResponsePayload` succeed together and agree in the metadata. -/
theorem C123_remote (E : Env) (rec : CallPos → Req → Option (Res Payload)) (p : CallPos) (q : Req) (a : HttpAnswer) :
    (∀ m, simpleResolve a = .ok m ↔ ∃ r, simplePayload a = .ok r ∧ r.metadata = m) ∧
    (∀ m, smartResolve E rec p q = some (.ok m) ↔ ∃ r, smartPayload E rec p q = some (.ok r) ∧ r.metadata = m) := by
  constructor
  · intro m
    cases a with
    | failed => simp [simpleResolve, simplePayload]
    | errorCode c => simp [simpleResolve, simplePayload]
    | body r => cases r <;> simp [simpleResolve, simplePayload]
  · intro m
    unfold smartResolve
    cases smartPayload E rec p q with
    | none => simp
    | some x => cases x <;> simp

/-- **C123**: with the smart resolver and anchors none of which has an endpoint that answers positively, the result is that of the local resolver. -/
theorem C123_smart_falls_back (E : Env) (rec : CallPos → Req → Option (Res Payload)) (p : CallPos) (q : Req) (h : smartRemote E p q 0 q.anchors = none) (r : Payload)
    (hr : smartPayload E rec p q = some (.ok r)) : smartResolve E rec p q = localResolve E p q := by
  have h1 : smartPayload E rec p q = localPayload E rec p q := by unfold smartPayload; rw [h]
  rw [(C123_local E rec p q).1 r (h1 ▸ hr)]
  unfold smartResolve
  rw [hr]

/-- **C123** (part): what a resolver signs with the library is what a caller of `Resolve` gets. As for C113, members of the metadata are compared one by one. -/
theorem C123_answered_partial (C : Crypto) (X : Reader) (hmap : ∀ v w, X.opq .map v = some w → ∃ l, w = .obj l) (P : String → Option Jws)
    (ser : Jws → String) (hP : ∀ j, P (ser j) = some j) (S : JSigner) (r : RResp) (hr : ResponseOk P X.opq r) (j : Jws) (hj : signResponse C S r = .ok j)
    (status : Nat) (err : String) (hs : status < 400) :
    ∃ pl, simpleResolve (resolveAnswer P X.opq X.N X.num (some ⟨status, err, ser j⟩)) = .ok pl.metadata ∧ ReadPayload X.N X.num r.payload pl := by
  obtain ⟨_, pl, _, _, h3, h4⟩ := C113_response_partial C X hmap P ser hP S r hr j hj status err hs
  exact ⟨pl, ((C123_remote ⟨fun _ => Ex.W, 0, fun _ => [], fun _ _ _ => none, fun _ _ => none, fun _ _ _ _ => .failed, fun _ _ => (0, 0), fun _ => ⟨[], none, []⟩,
    fun _ => none, fun _ => none, fun _ _ => false⟩ (fun _ _ => none) [] ⟨"", [], []⟩ _).1 _).2 ⟨pl, h3, rfl⟩, h4⟩

/-- **C123 fails** in that `Resolve` may return neither metadata nor an error: a response without metadata is accepted, and a trust anchor without metadata
resolves to itself with nil. -/
theorem C123_nil_refuted : simpleResolve (.body (some ⟨none, [], []⟩)) = .ok none ∧
    ∀ (s : Stmt), s.metadata = none → firstWithMetadata [[s]] = .ok ([s], none) := by
  refine ⟨rfl, ?_⟩
  intro s hs
  unfold firstWithMetadata chainMetadata
  simp [hs]

/-! ## C124 -/

/-- Every constructor gives its code and the description passed. -/
theorem C124_constructors (d : String) : (errorConstructors.map (fun f => (f d).code)) = errorCodes ∧ ∀ f ∈ errorConstructors, (f d).description = d := by
  refine ⟨rfl, ?_⟩
  intro f hf
  simp only [errorConstructors, List.mem_cons, List.not_mem_nil, or_false] at hf
  rcases hf with rfl | rfl | rfl | rfl | rfl | rfl | rfl | rfl | rfl | rfl | rfl <;> rfl

theorem error_read (e : ErrorResp) (status : Nat) (text : String) : readHttpError (e.answer status text) = some ⟨e.code, e.description, status⟩ := rfl

/-- **C124**: an error that a server answers with a status above 399 reaches the client with its code, its description and the status. -/
theorem C124_error_received (e : ErrorResp) (he : e.code ≠ "") (status : Nat) (hs : 400 ≤ status) (text : String) :
    httpGet (some (e.answer status text)) = .errorResponse ⟨e.code, e.description, status⟩ := by
  unfold httpGet
  simp only
  rw [if_pos (show 400 ≤ (e.answer status text).status from hs), error_read]
  simp [he]

/-- **C124**: what an error answer says is never taken for a statement, a resolve response or a collection, and `ResolvePossible` judges it by its code. -/
theorem C124_error_respected (P : String → Option Jws) (D : Jws → Option Stmt) (opq : Opaque) (N : Numbering) (num : Jws → Nat) (e : ErrorResp) (he : e.code ≠ "")
    (status : Nat) (hs : 400 ≤ status) (text : String) :
    obtain? P D (e.answer status text).toAnswer = none ∧
    collectFrom P ((e.answer status text).toAnswer.map (fun a => (a.status, a.err, some e.write))) = none ∧
    simplePayload (resolveAnswer P opq N num (e.answer status text).toAnswer) = .error .error ∧
    simpleResolve (resolveAnswer P opq N num (e.answer status text).toAnswer) = .error .error ∧
    ∃ v i, simplePossible (resolveAnswer P opq N num (e.answer status text).toAnswer) = (v, i) ∧ Verdict e.code v i := by
  have ha : (e.answer status text).toAnswer = some ⟨status, e.code, text⟩ := by
    unfold RawAnswer.toAnswer
    rw [C124_error_received e he status hs text]
    rfl
  have hr : resolveAnswer P opq N num (some ⟨status, e.code, text⟩) = .errorCode e.code := by
    unfold resolveAnswer
    simp only
    rw [if_pos ⟨hs, he⟩]
  rw [ha, hr]
  refine ⟨?_, ?_, rfl, rfl, ?_⟩
  rotate_left
  · simp only [Option.map_some, collectFrom]
    rw [if_pos ⟨hs, he⟩]
  rotate_left
  · unfold obtain? httpBody
    simp only
    rw [if_pos ⟨hs, he⟩]
    rfl
  · refine ⟨(simplePossible (.errorCode e.code)).1, (simplePossible (.errorCode e.code)).2, rfl, ?_⟩
    unfold Verdict simplePossible
    simp only
    by_cases h1 : e.code = "invalid_subject" ∨ e.code = "invalid_trust_anchor"
    · rw [if_pos h1]
      rcases h1 with h | h <;> simp [h]
    · rw [if_neg h1]
      by_cases h2 : e.code = "invalid_trust_chain"
      · rw [if_pos h2]; simp [h2]
      · rw [if_neg h2]
        by_cases h3 : e.code = "invalid_metadata"
        · rw [if_pos h3]; simp [h3]
        · rw [if_neg h3]; simp [h2, h3]

/-- The errors of all constructors meet the hypothesis. -/
example (d : String) : ∀ f ∈ errorConstructors, (f d).code ≠ "" := by
  intro f hf
  simp only [errorConstructors, List.mem_cons, List.not_mem_nil, or_false] at hf
  rcases hf with rfl | rfl | rfl | rfl | rfl | rfl | rfl | rfl | rfl | rfl | rfl <;> simp

/-- **C124 fails** for `ResolvePossible` if the answer is not of a JSON content type, has an empty code, or comes with a status below 400: the error is then taken for a
response that cannot be parsed, which counts as the confirmation that there is no valid chain. -/
theorem C124_other_errors_refuted (P : String → Option Jws) (opq : Opaque) (N : Numbering) (num : Jws → Nat) (text : String) (hP : P text = none) :
    (∀ status, simplePossible (resolveAnswer P opq N num (RawAnswer.toAnswer ⟨status, text, none⟩)) = (false, true)) ∧
    (∀ d status, simplePossible (resolveAnswer P opq N num ((ErrorResp.mk "" d).answer status text).toAnswer) = (false, true)) ∧
    (∀ (e : ErrorResp) (status : Nat), status < 400 → simplePossible (resolveAnswer P opq N num (e.answer status text).toAnswer) = (false, true)) := by
  have key : ∀ status, simplePossible (resolveAnswer P opq N num (some ⟨status, "", text⟩)) = (false, true) := by
    intro status
    unfold resolveAnswer readResponse
    simp [hP, simplePossible]
  refine ⟨?_, ?_, ?_⟩
  · intro status
    have : RawAnswer.toAnswer ⟨status, text, none⟩ = some ⟨status, "", text⟩ := by
      unfold RawAnswer.toAnswer httpGet
      simp only [readHttpError]
      split
      · rename_i h; split at h <;> simp at h
      · rename_i h; split at h <;> simp at h
      · rename_i h; split at h <;> (simp only [ne_eq, not_true_eq_false, if_false, GetResult.response.injEq] at h; rw [← h])
    rw [this]; exact key status
  · intro d status
    have : ((ErrorResp.mk "" d).answer status text).toAnswer = some ⟨status, "", text⟩ := by
      unfold RawAnswer.toAnswer httpGet
      simp only [error_read]
      by_cases h : 400 ≤ ((ErrorResp.mk "" d).answer status text).status
      · rw [if_pos h]; simp [ErrorResp.answer]
      · rw [if_neg h]; simp [ErrorResp.answer]
    rw [this]; exact key status
  · intro e status hs
    have : (e.answer status text).toAnswer = some ⟨status, "", text⟩ := by
      unfold RawAnswer.toAnswer httpGet
      simp only
      rw [if_neg (show ¬ 400 ≤ (e.answer status text).status by simp only [ErrorResp.answer]; omega)]
      rfl
    rw [this]; exact key status

example (opq : Opaque) (N : Numbering) (num : Jws → Nat) :
    simplePossible (resolveAnswer (fun _ => none) opq N num (RawAnswer.toAnswer ⟨503, "<html>", none⟩)) = (false, true) :=
  (C124_other_errors_refuted _ opq N num "<html>" rfl).1 503

end Oidfed
