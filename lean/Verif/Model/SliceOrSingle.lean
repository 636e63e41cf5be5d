import Verif.Model.JSONObject
/-!
# Slices whose single value may be written without the brackets (`sliceorsinglevalue.go`), for every element type
-/

namespace Oidfed

/-- Decoding a list of values element by element. -/
def decAll {T : Type} (dec : JV → Option T) : List JV → Option (List T)
  | [] => some []
  | v :: l => match dec v, decAll dec l with
    | some t, some r => some (t :: r)
    | _, _ => none

/-- `SliceOrSingleValue[T].MarshalJSON` (sliceorsinglevalue.go:30-35); `none` is the nil slice. `enc` writes a `T`. -/
def marshalSliceOf {T : Type} (enc : T → JV) : Option (List T) → JV
  | none => .null
  | some [x] => enc x
  | some l => .arr (l.map enc)

/-- `SliceOrSingleValue[T].UnmarshalJSON` (sliceorsinglevalue.go:14-27) and `UnmarshalYAML` (sliceorsinglevalue.go:37-49): first tried as a single `T`. -/
def unmarshalSliceOf {T : Type} (dec : JV → Option T) (v : JV) : Option (Option (List T)) :=
  match dec v with
  | some t => some (some [t])
  | none => match v with
    | .null => some none
    | .arr l => (decAll dec l).map some
    | _ => none

/-- `SliceOrSingleValue[T].MarshalYAML` (sliceorsinglevalue.go:52-57); `yaml.v3` writes a nil slice as an empty sequence. -/
def marshalSliceYAML {T : Type} (enc : T → JV) : Option (List T) → JV
  | none => .arr []
  | some [x] => enc x
  | some l => .arr (l.map enc)

end Oidfed
