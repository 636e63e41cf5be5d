import Verif.Model.MetaResolver
/-!
# Collecting the entities of a federation (`discovery.go`)

`SimpleEntityCollector` starts one goroutine for the authority and one for each of its subordinates; a subordinate that itself has a
listing is collected by a nested call of `collect` with its own worker tokens and channels, but with the set of visited entities shared by
all calls. Steps of all goroutines interleave in every possible way. Operations on channels, on the wait group and on the set of visited
entities are atomic steps (for the set this is an assumption: it is not synchronised, see property C75).
-/

namespace Oidfed

/-! ## One call of `collect` -/

/-- `maxCollectWorkers` (discovery.go:225). -/
def maxCollectWorkers : Nat := 128

/-- Where the goroutine of an authority is (discovery.go:259-267, 269-449). -/
inductive AuthPC where
  /-- about to look whether the authority was visited (line 272) -/
  | check
  /-- about to mark it as visited (line 276) -/
  | add
  /-- about to obtain its configuration and its listing (lines 278-294) -/
  | list
  /-- in the loop over the subordinates, these are left (lines 296-446) -/
  | spawn (rest : List ID)
  /-- the task returned, the token is still held (line 264) -/
  | ended
  /-- the token is released, `wg.Done` not yet called (line 263) -/
  | released
  | gone
deriving DecidableEq, Repr

/-- Where the goroutine of a subordinate is (discovery.go:259-267, 298-443). `list`: its configuration names a listing endpoint. -/
inductive SubPC where
  /-- about to obtain its configuration and to decide whether it is included (lines 299-336) -/
  | fetch
  /-- about to send itself to the channel (line 433) -/
  | send (list : Bool)
  /-- about to decide whether to collect its subordinates (lines 436-437) -/
  | nest (list : Bool)
  /-- waiting for the nested call, the `child`-th of all calls (line 438) -/
  | wait (child : Nat)
  /-- sending what the nested call returned, this is left (lines 439-441) -/
  | fwd (rest : List ID)
  /-- as for authorities -/
  | ended
  | released
  | gone
deriving DecidableEq, Repr

/-- Where the call itself is: the channel is open; closed by the goroutine at lines 451-454; returned (lines 456-457). -/
inductive CPhase where
  | running | closed | returned
deriving DecidableEq, Repr

/-- A call of `collect` (discovery.go:227-458) for one authority; both callers (lines 222, 438) pass exactly one. `sem` is the number of
tokens in the semaphore channel, `wg` the wait group's counter, `out` the ids of `entities` in order (`seen` contains the same ids,
lines 247-249), `listing` the authority's subordinates once obtained, `path` the authorities of the enclosing calls. `listing` and `path`
are never read by a step. -/
structure CFrame where
  auth : ID
  path : List ID
  apc : AuthPC
  listing : Option (List ID)
  subs : List (ID × SubPC)
  sem : Nat
  wg : Nat
  out : List ID
  phase : CPhase
deriving DecidableEq, Repr

/-- The start of a call (discovery.go:232-271): the semaphore is empty, so the authority's goroutine gets its token at once. -/
def CFrame.start (path : List ID) (auth : ID) : CFrame := ⟨auth, path, .check, none, [], 1, 1, [], .running⟩

/-- The collector goroutine receives an entity (discovery.go:244-251). -/
def CFrame.receive (f : CFrame) (id : ID) : CFrame := if f.out.contains id then f else { f with out := f.out ++ [id] }

/-- All calls of `collect` started so far, in the order in which they were started, the set of visited entities, and whether some goroutine panicked
(by sending to a closed channel). -/
structure CState where
  visited : List ID
  frames : List CFrame
  panicked : Bool
deriving DecidableEq, Repr

/-- Replace the `i`-th call. -/
def CState.set (s : CState) (i : Nat) (f : CFrame) : CState := { s with frames := s.frames.set i f }

/-- Move the `j`-th worker of a call. -/
def CFrame.setSub (f : CFrame) (j : Nat) (id : ID) (pc : SubPC) : CFrame := { f with subs := f.subs.set j (id, pc) }

/-! ## Steps -/

/-- What happens next: a step of the authority's goroutine in the `i`-th call, a step of its `j`-th subordinate's goroutine, or a step of the call
itself. What is obtained from outside comes with the step: the listing (empty if the configuration or the listing cannot be obtained or there is
no listing endpoint), and for a subordinate nothing (no configuration or no metadata) or whether it is included and whether it has a listing
endpoint. -/
inductive CAct where
  | auth (i : Nat) (listing : List ID)
  | sub (i j : Nat) (info : Option (Bool × Bool))
  | call (i : Nat)
deriving DecidableEq, Repr

/-- A step of the authority's goroutine (discovery.go:259-267, 271-447); `cap` is the capacity of the semaphore. -/
def authStep (cap : Nat) (s : CState) (i : Nat) (f : CFrame) (listing : List ID) : Option CState :=
  match f.apc with
  | .check => some (s.set i { f with apc := if s.visited.contains f.auth then .ended else .add })
  | .add => some { s.set i { f with apc := .list } with visited := f.auth :: s.visited }
  | .list => some (s.set i { f with apc := .spawn listing, listing := some listing })
  | .spawn [] => some (s.set i { f with apc := .ended })
  | .spawn (id :: rest) =>
    if f.sem < cap then
      some (s.set i { f with apc := .spawn rest, subs := f.subs ++ [(id, .fetch)], sem := f.sem + 1, wg := f.wg + 1 })
    else none
  | .ended => some (s.set i { f with apc := .released, sem := f.sem - 1 })
  | .released => some (s.set i { f with apc := .gone, wg := f.wg - 1 })
  | .gone => none

/-- Sending to the channel of the call (discovery.go:433, 440): panics if it is closed. -/
def sendStep (s : CState) (i j : Nat) (f : CFrame) (id x : ID) (next : SubPC) : CState :=
  match f.phase with
  | .running => s.set i ((f.setSub j id next).receive x)
  | _ => { s with panicked := true }

/-- A step of a subordinate's goroutine (discovery.go:259-267, 298-443). -/
def subStep (s : CState) (i j : Nat) (f : CFrame) (id : ID) (info : Option (Bool × Bool)) : SubPC → Option CState
  | .fetch =>
    some (s.set i (f.setSub j id (match info with
      | none => .ended
      | some (true, list) => .send list
      | some (false, list) => .nest list)))
  | .send list => some (sendStep s i j f id id (.nest list))
  | .nest false => some (s.set i (f.setSub j id .ended))
  | .nest true =>
    let t := s.set i (f.setSub j id (.wait s.frames.length))
    some { t with frames := t.frames ++ [CFrame.start (f.auth :: f.path) id] }
  | .wait c =>
    match s.frames[c]? with
    | none => none
    | some g => if g.phase = .returned then some (s.set i (f.setSub j id (.fwd g.out))) else none
  | .fwd [] => some (s.set i (f.setSub j id .ended))
  | .fwd (x :: rest) => some (sendStep s i j f id x (.fwd rest))
  | .ended => some (s.set i { f.setSub j id .released with sem := f.sem - 1 })
  | .released => some (s.set i { f.setSub j id .gone with wg := f.wg - 1 })
  | .gone => none

/-- A step of the call: closing the channel once the wait group's counter is zero, returning (discovery.go:450-457). -/
def callStep (s : CState) (i : Nat) (f : CFrame) : Option CState :=
  match f.phase with
  | .running => if f.wg = 0 then some (s.set i { f with phase := .closed }) else none
  | .closed => some (s.set i { f with phase := .returned })
  | .returned => none

/-- One step; `none` if it is not possible now. Nothing moves after a panic. -/
def cstep (cap : Nat) (s : CState) (a : CAct) : Option CState :=
  if s.panicked then none
  else match a with
    | .auth i listing => match s.frames[i]? with
      | none => none
      | some f => authStep cap s i f listing
    | .sub i j info => match s.frames[i]? with
      | none => none
      | some f => match f.subs[j]? with
        | none => none
        | some (id, pc) => subStep s i j f id info pc
    | .call i => match s.frames[i]? with
      | none => none
      | some f => callStep s i f

/-- The answers that the outside may give: listings of an authority, and what is found out about a subordinate. -/
structure CWorld where
  lists : ID → List ID → Prop
  info : ID → Option (Bool × Bool) → Prop

/-- The answers used in a step are among those that the outside may give. -/
def CAct.allowed (W : CWorld) (s : CState) : CAct → Prop
  | .auth i listing => ∀ f, s.frames[i]? = some f → f.apc = .list → W.lists f.auth listing
  | .sub i j info => ∀ f id, s.frames[i]? = some f → f.subs[j]? = some (id, .fetch) → W.info id info
  | .call _ => True

/-- A step of one of the goroutines. -/
def CStep (cap : Nat) (W : CWorld) (s s' : CState) : Prop := ∃ a : CAct, a.allowed W s ∧ cstep cap s a = some s'

/-- `SimpleEntityCollector.CollectEntities` (discovery.go:220-223) is called on a collector that is in state `s`: a new set of visited entities. -/
def CState.collect (s : CState) (anchor : ID) : CState := { s with visited := [], frames := s.frames ++ [CFrame.start [] anchor] }

/-- A new collector. -/
def CState.new : CState := ⟨[], [], false⟩

/-- Runs of a collector on which `CollectEntities` may be called again and again, also while other calls are running. -/
inductive CRuns (cap : Nat) (W : CWorld) : CState → Prop where
  | new : CRuns cap W CState.new
  | call {s : CState} (anchor : ID) : CRuns cap W s → CRuns cap W (s.collect anchor)
  | step {s s' : CState} : CRuns cap W s → CStep cap W s s' → CRuns cap W s'

/-- The outside may answer anything. -/
def CWorld.any : CWorld := ⟨fun _ _ => True, fun _ _ => True⟩

/-- A collector after any number of earlier calls, with arbitrary answers from outside, that all have returned. -/
def CIdle (cap : Nat) (s : CState) : Prop := CRuns cap CWorld.any s ∧ ∀ f ∈ s.frames, f.phase = .returned

/-- Runs of a single call of `CollectEntities` on a collector in state `s0`; its call of `collect` is the one with number `s0.frames.length`. -/
inductive CRun (cap : Nat) (W : CWorld) (s0 : CState) (anchor : ID) : CState → Prop where
  | init : CRun cap W s0 anchor (s0.collect anchor)
  | step {s s' : CState} : CRun cap W s0 anchor s → CStep cap W s s' → CRun cap W s0 anchor s'

/-! ## What the outside answers -/

/-- `apimodel.EntityCollectionRequest` (apimodel/collection.go:4-12) without paging (which the collector ignores) and claims (which do not
influence which entities are collected). `types = none` is a nil slice. -/
structure CollectReq where
  anchor : ID
  types : Option (List String)
  name : String
  markTypes : List String

/-- The outside world of one collection; answers do not change while it runs. -/
structure CollectEnv where
  /-- `GetEntityConfiguration` -/
  ec : ID → Option Stmt
  /-- `fetchList` (discovery.go:566-594) of an endpoint -/
  listAt : String → Option (List ID)
  /-- the trust marks of a configuration -/
  marks : Stmt → List Info
  /-- `VerifyFederation` of a trust mark with an anchor's configuration gives no error -/
  verifies : Stmt → Info → Bool
  /-- `fuzzy.FindNormalizedFold` finds something (third-party) -/
  fuzzy : String → List String → Bool

/-- The field a display name is taken from if there is no `display_name` (metadata.go:46-92). -/
def EType.nameTag : EType → String
  | .op | .as | .fed => "organization_name"
  | .rp | .client => "client_name"
  | .resource => "resource_name"

/-- `GuessDisplayName` (metadata.go:46-92). -/
def guessDisplayName (t : EType) (m : EntityMeta) : String :=
  if m.str "display_name" ≠ "" then m.str "display_name" else m.str t.nameTag

/-- `Metadata.GuessDisplayNames` (metadata.go:95-115). -/
def Metadata.displayNames (m : Metadata) : AMap String :=
  EType.all.filterMap (fun t => (m.known t).map (fun em => (t.tag, guessDisplayName t em)))

/-- The listing endpoint of a configuration, `""` if one of the pointers is nil (discovery.go:284-285, 436-437). -/
def Stmt.listEndpoint (s : Stmt) : String :=
  match s.metadata with
  | none => ""
  | some m => match m.known .fed with
    | none => ""
    | some f => f.str "federation_list_endpoint"

/-- The loop over the requested trust mark types (discovery.go:320-336). -/
def marksIncluded (E : CollectEnv) (anchor : ID) (marks : List Info) : List String → Bool
  | [] => true
  | t :: ts =>
    match marks.find? (fun i => i.type == t) with
    | none => false
    | some i => match E.ec anchor with
      | none => false
      | some ta => E.verifies ta i && marksIncluded E anchor marks ts

/-- `includeEntity` (discovery.go:312-336). -/
def includeEntity (E : CollectEnv) (q : CollectReq) (st : Stmt) (m : Metadata) : Bool :=
  (match q.types with
    | none => true
    | some ts => (m.entityTypes.filter (fun t => ts.contains t)).length != 0)
  && (q.name == "" || E.fuzzy q.name (m.displayNames.map (fun kv => kv.2)))
  && marksIncluded E q.anchor (E.marks st) q.markTypes

/-- What the authority's goroutine obtains (discovery.go:278-294). -/
def CollectEnv.listing (E : CollectEnv) (a : ID) : List ID :=
  match E.ec a with
  | none => []
  | some st => if st.listEndpoint = "" then [] else (E.listAt st.listEndpoint).getD []

/-- What a subordinate's goroutine finds out (discovery.go:299-336, 436-437). -/
def CollectEnv.info (E : CollectEnv) (q : CollectReq) (id : ID) : Option (Bool × Bool) :=
  match E.ec id with
  | none => none
  | some st => match st.metadata with
    | none => none
    | some m => some (includeEntity E q st m, st.listEndpoint != "")

/-- The answers for a request. -/
def CollectEnv.world (E : CollectEnv) (q : CollectReq) : CWorld := ⟨fun a l => l = E.listing a, fun id x => x = E.info q id⟩

end Oidfed
