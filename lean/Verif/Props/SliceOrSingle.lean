import Verif.Model.SliceOrSingle
import Verif.Props.JSON
/-!
# C51 for every element type, and in YAML
-/

namespace Oidfed

theorem decAll_map {T : Type} {enc : T → JV} {dec : JV → Option T} (h : ∀ x, dec (enc x) = some x) : ∀ l : List T, decAll dec (l.map enc) = some l
  | [] => rfl
  | x :: l => by rw [List.map_cons, decAll, h, decAll_map h l]

/-- **C51** (part): for every type of elements that survive a round trip, and of which none can be read from a list: every list that is not the nil slice is read back as it
was written, in JSON and in YAML. -/
theorem C51_elements_partial {T : Type} (enc : T → JV) (dec : JV → Option T) (h : ∀ x, dec (enc x) = some x) (harr : ∀ l, dec (.arr l) = none) (l : List T) :
    unmarshalSliceOf dec (marshalSliceOf enc (some l)) = some (some l) ∧ unmarshalSliceOf dec (marshalSliceYAML enc (some l)) = some (some l) := by
  match l with
  | [] => simp [marshalSliceOf, marshalSliceYAML, unmarshalSliceOf, harr, decAll]
  | [x] => simp [marshalSliceOf, marshalSliceYAML, unmarshalSliceOf, h]
  | a :: b :: l =>
    have := decAll_map h (a :: b :: l)
    simp only [List.map_cons] at this
    simp [marshalSliceOf, marshalSliceYAML, unmarshalSliceOf, harr, this]

/-- **C51**: a list that has to be written as such because the peer does not write single values without brackets is read, too. -/
theorem C51_bracketed {T : Type} (enc : T → JV) (dec : JV → Option T) (h : ∀ x, dec (enc x) = some x) (harr : ∀ l, dec (.arr l) = none) (l : List T) :
    unmarshalSliceOf dec (.arr (l.map enc)) = some (some l) := by
  simp [unmarshalSliceOf, harr, decAll_map h]

/-- **C51** (part): a list is read exactly if every element can be read, and then as the list of what is read from the elements: malformed elements are not skipped. The
provision is that no element can be read from a list, as in `C51_elements_partial`. -/
theorem C51_lists_partial {T : Type} (dec : JV → Option T) (harr : ∀ l, dec (.arr l) = none) (l : List JV) (xs : List T) :
    unmarshalSliceOf dec (.arr l) = some (some xs) ↔ l.map dec = xs.map some := by
  have key : ∀ (l : List JV) (xs : List T), decAll dec l = some xs ↔ l.map dec = xs.map some := by
    intro l
    induction l with
    | nil => intro xs; cases xs <;> simp [decAll]
    | cons v l ih =>
      intro xs
      unfold decAll
      cases hv : dec v with
      | none => cases xs <;> simp [hv]
      | some t =>
        cases hl : decAll dec l with
        | none =>
          cases xs with
          | nil => simp
          | cons x xs =>
            have := ih xs
            rw [hl] at this
            simp only [List.map_cons, hv]
            constructor
            · intro h; cases h
            · intro h; cases this.mpr (List.cons.inj h).2
        | some r =>
          cases xs with
          | nil => simp
          | cons x xs =>
            have := ih xs
            rw [hl] at this
            simp only [List.map_cons, hv, Option.some.injEq, List.cons.injEq] at this ⊢
            rw [this]
  rw [← key]
  simp [unmarshalSliceOf, harr]

/-- In YAML the nil slice is read back as an empty one, and not as a slice with one element. -/
theorem C51_nil_yaml {T : Type} (enc : T → JV) (dec : JV → Option T) (harr : ∀ l, dec (.arr l) = none) :
    unmarshalSliceOf dec (marshalSliceYAML enc none) = some (some []) := by
  simp [marshalSliceYAML, unmarshalSliceOf, harr, decAll]

/-- Numbers, for example. -/
def decNumber : JV → Option Rat
  | .num q => some q
  | .null => some 0
  | _ => none

example : (∀ x, decNumber (.num x) = some x) ∧ (∀ l, decNumber (.arr l) = none) ∧ unmarshalSliceOf decNumber (marshalSliceOf .num (some [3])) = some (some [3]) ∧
    marshalSliceOf .num (some [3]) = .num 3 := ⟨fun _ => rfl, fun _ => rfl, rfl, rfl⟩

example : unmarshalSliceOf decNumber (.arr [.num 1, .num 2]) = some (some [1, 2]) ∧ unmarshalSliceOf decNumber (.arr [.num 1, .str "x"]) = none := ⟨rfl, rfl⟩

/-- **C51 fails** for element types that lists can be read as: a list of two values of any type (Go's `any`) is read back as a list with one element, the list. -/
theorem C51_any_refuted : ¬ ∀ (T : Type) (enc : T → JV) (dec : JV → Option T), (∀ x, dec (enc x) = some x) →
    ∀ l : List T, unmarshalSliceOf dec (marshalSliceOf enc (some l)) = some (some l) := by
  intro h
  have := h JV id some (fun _ => rfl) [.null, .null]
  simp [marshalSliceOf, unmarshalSliceOf] at this

/-- Strings as in `C51_roundtrip_partial`. -/
def decStr1 : JV → Option String
  | .str s => some s
  | .null => some ""
  | _ => none

theorem decAll_strings : ∀ l, decAll decStr1 l = decStrings l
  | [] => rfl
  | v :: l => by
    have ih := decAll_strings l
    cases v <;> simp only [decAll, decStr1, decStrings, ih] <;> cases decStrings l <;> rfl

theorem unmarshalSliceOf_strings (v : JV) : unmarshalSliceOf decStr1 v = unmarshalSlice v := by
  cases v <;> simp [unmarshalSliceOf, decStr1, unmarshalSlice, decAll_strings]

end Oidfed
