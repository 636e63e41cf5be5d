import Verif.Validation.Federation
import Verif.Model.Collector
import Verif.Model.SliceOrSingle
import Verif.Model.AuthCode
/-!
# The library's own tests of collecting providers, of lists with a single value, of request objects and of finding metadata, run on the model

`TestSimpleOPCollector_CollectEntities` (discovery_test.go:10-85) for the federation of Validation/Federation, under two schedules; `TestSliceOrSingleValue_Marshal` and
`TestSliceOrSingleValue_Unmarshal` (sliceorsinglevalue_test.go:10-83); `TestRequestObjectProducer_RequestObject` and `TestRequestObjectProducer_ClientAssertion` (authcode_test.go:10-139);
`TestMetadata_FindEntityMetadata` (metadata_test.go:335-381). These are tests of the model, not proofs of properties.
-/

namespace Oidfed.Validation
open Oidfed

/-! ## TestSimpleOPCollector_CollectEntities -/

/-- The mock authorities list those registered with them. No entity has trust marks and no test asks for names. -/
def collectEnv : CollectEnv where
  ec := fun id => (entity id).bind Entity.configuration
  listAt := fun ep => (entities.find? (fun e => e.id ++ "/list" == ep)).map (fun e =>
    (entities.filter (fun s => s.hints.contains e.id)).map Entity.id)
  marks := fun _ => []
  verifies := fun _ _ => false
  fuzzy := fun _ _ => false

def opRequestFor (anchor : ID) : CollectReq := ⟨anchor, some ["openid_provider"], "", []⟩

/-- The possible steps with what the mock servers answer. -/
def stepsOf (q : CollectReq) (s : CState) : List CAct :=
  ((List.range s.frames.length).map (fun i => match s.frames[i]? with
    | none => []
    | some f => [CAct.call i, CAct.auth i (if f.apc = .list then collectEnv.listing f.auth else [])] ++
        (List.range f.subs.length).map (fun j => match f.subs[j]? with
          | some (id, .fetch) => CAct.sub i j (collectEnv.info q id)
          | _ => CAct.sub i j none))).flatten

/-- Run until nothing can move; the first or the last of the steps that are possible is taken. -/
def runCollect (q : CollectReq) (last : Bool) : Nat → CState → CState
  | 0, s => s
  | n+1, s =>
    let acts := stepsOf q s
    match (if last then acts.reverse else acts).findSome? (cstep maxCollectWorkers s) with
    | none => s
    | some s' => runCollect q last n s'

def collects (anchor : ID) (last : Bool) (expected : List ID) : Bool :=
  let s := runCollect (opRequestFor anchor) last 1000 (CState.new.collect anchor)
  !s.panicked && match s.frames with
    | f :: _ => f.phase == .returned && f.out.length == expected.length && f.out.all (fun id => expected.contains id)
    | [] => false

set_option maxRecDepth 100000 in
example : collects ta1 false [op1, op2, op3, proxy] = true := by decide +kernel
set_option maxRecDepth 100000 in
example : collects ta1 true [op1, op2, op3, proxy] = true := by decide +kernel
set_option maxRecDepth 100000 in
example : collects ta2 false [op1, op2, op3, proxy] = true := by decide +kernel
set_option maxRecDepth 100000 in
example : collects ta2 true [op1, op2, op3, proxy] = true := by decide +kernel
set_option maxRecDepth 100000 in
example : collects ia1 false [op1, op3, proxy] = true := by decide +kernel
set_option maxRecDepth 100000 in
example : collects ia2 true [op1, op2, op3, proxy] = true := by decide +kernel

/-! ## SliceOrSingleValue -/

def decStr : JV → Option String
  | .str s => some s
  | _ => none

example : marshalSliceOf JV.str none = .null := rfl
example : marshalSliceOf JV.str (some ["value"]) = .str "value" := rfl
example : marshalSliceOf JV.str (some ["value", "and", "more"]) = .arr [.str "value", .str "and", .str "more"] := rfl
example : unmarshalSliceOf decStr (.str "value") = some (some ["value"]) := rfl
example : unmarshalSliceOf decStr (.arr [.str "value", .str "and", .str "more"]) = some (some ["value", "and", "more"]) := rfl

/-! ## Request objects and client assertions -/

/-- A signer that hands out what it is given if the payload has these members and none of the others. -/
def expecting (present : List (String × String)) (absent : List String) : Signer := fun _ payload =>
  if present.all (fun kv => match payload.lookup kv.1 with | some (.str s) => s == kv.2 | _ => false) &&
    absent.all (fun k => (payload.lookup k).isNone) then some "jwt" else none

def rop : ROProducer := ⟨rp1, 60⟩
def aud := "https://aud.example.com"

example : (rop.requestObject (expecting [("aud", aud), ("iss", rp1), ("client_id", rp1)] ["sub", "client_secret"]) 1000 (some "j")
    (some [("aud", .str aud)])).1 = some "jwt" := by decide +kernel
example : (rop.requestObject (expecting [("aud", aud), ("iss", rp1), ("client_id", rp1), ("key", "value")] ["sub", "client_secret"]) 1000 (some "j")
    (some [("aud", .str aud), ("key", .str "value")])).1 = some "jwt" := by decide +kernel
example : rop.clientAssertion (expecting [("aud", aud), ("iss", rp1), ("sub", rp1)] ["client_id"]) 1000 (some "j") aud = some "jwt" := by decide +kernel

/-! ## TestMetadata_FindEntityMetadata -/

/-- Whether the metadata is found; `deserializeInto` holds an interface, which any JSON is decoded into. -/
def finds (data : JObj) (type : String) : Bool :=
  match readMetadata (fun _ v => some v) data with
  | none => false
  | some m => !(findEntityMetadata m type (fun (_ : JV) v => some v) JV.null).failed

def extraMetadata : JObj := [("another-entity", .obj [("a-key", .str "a-value")]),
  ("federation_entity", .obj [("federation_fetch_endpoint", .str "https://federation.endpoint/fetch")])]

example : finds extraMetadata "federation_entity" = true := by decide +kernel
example : finds extraMetadata "another-entity" = true := by decide +kernel
example : finds extraMetadata "openid_provider" = false := by decide +kernel
example : finds extraMetadata "no-such-metadata" = false := by decide +kernel

end Oidfed.Validation
