import Verif.Props.Accepted
import Verif.Model.ResolveAPI
import Verif.Model.MarkJSON
/-!
# C139: exactly the error responses and specifications whose members have the right types are accepted
-/

namespace Oidfed
open Spec

/-- The members of an error response. -/
theorem httpErrorDec_fits (f : String × JType) (hf : f ∈ [("error", JType.text), ("error_description", .text), ("Status", .integer)]) : DecFits f.2 (httpErrorDec f.1) := by
  simp only [List.mem_cons, List.not_mem_nil, or_false] at hf
  rcases hf with rfl | rfl | rfl
  · exact decString_fits
  · exact decString_fits
  · intro cur v hc
    cases v with
    | null => exact ⟨⟨fun _ => fits_integer_null, fun _ => rfl⟩, fun c h => hc c (Option.some.inj h)⟩
    | num q =>
      have := decInt_fits (.num q) (by simp)
      show ((if (decInt (.num q)).isSome then some (some (JV.num q)) else none).isSome ↔ _) ∧ _
      by_cases h : (decInt (.num q)).isSome = true
      · refine ⟨⟨fun _ => this.mp h, fun _ => by rw [if_pos h]; rfl⟩, fun c hc => ?_⟩
        have hc : (if (decInt (.num q)).isSome then some (some (JV.num q)) else none) = some (some c) := hc
        rw [if_pos h] at hc
        cases hc
        exact this.mp h
      · refine ⟨⟨fun h' => ?_, fun h' => absurd (this.mpr h') h⟩, fun c hc => ?_⟩
        · rw [if_neg h] at h'; cases h'
        · have hc : (if (decInt (.num q)).isSome then some (some (JV.num q)) else none) = some (some c) := hc
          rw [if_neg h] at hc; cases hc
    | _ => exact ⟨⟨fun h => (by cases h), fun h => (by cases h)⟩, fun c h => by cases h⟩

/-- **C139**: an answer with an error status and a JSON body is understood if and only if the members have the right types; otherwise the request counts as failed. -/
theorem C139_error (status : Nat) (hs : 400 ≤ status) (text : String) (v : JV) :
    httpGet (some ⟨status, text, some (some v)⟩) ≠ .failed ↔ OfType httpErrorShape v := by
  have key : (readHttpError ⟨status, text, some (some v)⟩).isSome ↔ OfType httpErrorShape v := by
    cases v with
    | null => exact ⟨fun _ => fits_record_null _, fun _ => rfl⟩
    | obj l =>
      unfold httpErrorShape readHttpError
      exact recordDec_fits (fs := [("error", .text), ("error_description", .text), ("Status", .integer)]) (apart_of (tags := httpErrorTags) (by decide) rfl)
        (I := fun f => OfType f.2) httpErrorDec_fits l
    | _ => exact ⟨fun h => (by cases h), fun h => (by cases h)⟩
  rw [← key]
  simp only [httpGet, if_pos hs]
  cases readHttpError ⟨status, text, some (some v)⟩ with
  | none => simp
  | some e =>
    simp only [Option.isSome_some, iff_true]
    split <;> simp

/-- **C139**: a stored trust mark specification is accepted if and only if its members have the right types. -/
theorem C139_spec (l : JObj) : (readSpecJSON l).isSome ↔ OfType specShape (.obj l) := by
  unfold readSpecJSON
  rw [Option.isSome_map]
  refine unmarshalObj_fits (fs := [("trust_mark_type", .text), ("lifetime", .number), ("ref", .text), ("logo_uri", .text), ("include_extra_claims_in_info", .truth),
    ("delegation_jwt", .text)]) (apart_of (tags := specTags) (by decide) rfl) (I := fun f => OfType f.2) ?_ l
  intro f hf
  simp only [List.mem_cons, List.not_mem_nil, or_false] at hf
  rcases hf with rfl | rfl | rfl | rfl | rfl | rfl
  · exact decString_fits
  · intro cur v _
    cases v with
    | null => exact ⟨⟨fun _ => fits_number_null, fun _ => rfl⟩, fun c h => by cases h; exact .number 0⟩
    | num q => exact ⟨⟨fun _ => .number q, fun _ => rfl⟩, fun c h => by cases h; exact .number q⟩
    | _ => exact ⟨⟨fun h => (by cases h), fun h => (by cases h)⟩, fun c h => by cases h⟩
  · exact decString_fits
  · exact decString_fits
  · intro cur v hc
    cases v with
    | null => exact ⟨⟨fun _ => .null _ (fun _ h => by cases h), fun _ => rfl⟩, fun c h => hc c (Option.some.inj h)⟩
    | bool b => exact ⟨⟨fun _ => .truth b, fun _ => rfl⟩, fun c h => by cases h; exact .truth b⟩
    | _ => exact ⟨⟨fun h => (by cases h), fun h => (by cases h)⟩, fun c h => by cases h⟩
  · exact decString_fits

/-- An error response with a number for the code is a failed request, one with a status of its own is understood. -/
example : httpGet (some ⟨400, "", some (some (.obj [("error", .num 1)]))⟩) = .failed ∧
    httpGet (some ⟨400, "", some (some (.obj [("error", .str "not_found"), ("status", .num 7)]))⟩) = .errorResponse ⟨"not_found", "", 400⟩ ∧
    httpGet (some ⟨400, "", some (some (.obj [("error", .str "not_found"), ("status", .str "7")]))⟩) = .failed := ⟨rfl, rfl, rfl⟩

/-- A specification whose lifetime is a string is refused. -/
example : (readSpecJSON [("trust_mark_type", .str "tm"), ("Lifetime", .num 60)]).isSome = true ∧ (readSpecJSON [("trust_mark_type", .str "tm"), ("lifetime", .str "60")]).isSome = false := by
  decide +kernel

end Oidfed
