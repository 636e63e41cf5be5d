import Verif.Lemmas.CollectorAnswers
import Verif.Spec.Collector
import Verif.Examples.Federation
/-!
# C45, C46, C47, C75, C76, C77: collecting the entities of a federation
-/

namespace Oidfed

open Spec

namespace Ex

/-- Whose turn it is; answers are those of the environment. -/
inductive Mv where
  | a (i : Nat)
  | s (i j : Nat)
  | c (i : Nat)

def Mv.act (E : CollectEnv) (q : CollectReq) (st : CState) : Mv → CAct
  | .a i => .auth i (match st.frames[i]? with
    | some f => E.listing f.auth
    | none => [])
  | .s i j => .sub i j (match st.frames[i]? with
    | some f => match f.subs[j]? with
      | some x => E.info q x.1
      | none => none
    | none => none)
  | .c i => .call i

theorem Mv.allowed (E : CollectEnv) (q : CollectReq) (st : CState) (m : Mv) : (m.act E q st).allowed (E.world q) st := by
  cases m with
  | a i => intro f hf _; simp only [hf]; rfl
  | s i j => intro f id hf hj; simp only [hf, hj]; rfl
  | c i => trivial

/-- Executes moves, `none` if one of them is not possible. -/
def cexec (cap : Nat) (E : CollectEnv) (q : CollectReq) : CState → List Mv → Option CState
  | s, [] => some s
  | s, m :: ms => match cstep cap s (m.act E q s) with
    | none => none
    | some s' => cexec cap E q s' ms

theorem cexec_run {cap : Nat} {E : CollectEnv} {q : CollectReq} {s0 s s' : CState} {anchor : ID} (ms : List Mv)
    (h : CRun cap (E.world q) s0 anchor s) (he : cexec cap E q s ms = some s') : CRun cap (E.world q) s0 anchor s' := by
  induction ms generalizing s with
  | nil => simp only [cexec, Option.some.injEq] at he; exact he ▸ h
  | cons m ms ih =>
    unfold cexec at he
    cases hc : cstep cap s (m.act E q s) with
    | none => rw [hc] at he; cases he
    | some t => rw [hc] at he; exact ih (.step h ⟨_, m.allowed E q s, hc⟩) he

theorem cexec_runs {cap : Nat} {E : CollectEnv} {q : CollectReq} {s s' : CState} (ms : List Mv)
    (h : CRuns cap (E.world q) s) (he : cexec cap E q s ms = some s') : CRuns cap (E.world q) s' := by
  induction ms generalizing s with
  | nil => simp only [cexec, Option.some.injEq] at he; exact he ▸ h
  | cons m ms ih =>
    unfold cexec at he
    cases hc : cstep cap s (m.act E q s) with
    | none => rw [hc] at he; cases he
    | some t => rw [hc] at he; exact ih (.step h ⟨_, m.allowed E q s, hc⟩) he

/-- A configuration with a listing endpoint; `""` for none. -/
def listEC (id : ID) (endpoint : String) : Stmt :=
  { mk id id (some [1]) 1 with metadata := some ⟨fun t =>
      if t = .fed then some ⟨[⟨"FederationListEndpoint", "federation_list_endpoint", .str, .str endpoint⟩], [], []⟩ else none, none⟩ }

/-- "t" lists "b" and "c"; "b" lists "d", itself and "t"; "c" lists nothing although it has an endpoint; "x" is not listed. -/
def cenv : CollectEnv where
  ec id := if id = "t" then some (listEC "t" "t/list") else if id = "b" then some (listEC "b" "b/list") else
    if id = "c" then some (listEC "c" "c/list") else if id = "d" then some (listEC "d" "") else if id = "x" then some (listEC "x" "") else none
  listAt e := if e = "t/list" then some ["b", "c"] else if e = "b/list" then some ["d", "b", "t"] else if e = "c/list" then some [] else none
  marks _ := []
  verifies _ _ := false
  fuzzy _ _ := false

def creq (anchor : ID) : CollectReq := ⟨anchor, none, "", []⟩

end Ex

/-! ## C45: no duplicates -/

/-- C45, for every collector, however often and with whatever overlap it is called, for all answers from outside and every schedule: in
every call, finished or not, what has been collected has no duplicates. -/
theorem C45_no_duplicates {W : CWorld} {s : CState} (h : CRuns maxCollectWorkers W s) : ∀ f ∈ s.frames, f.out.Nodup := by
  intro f hf
  obtain ⟨i, hi⟩ := List.getElem?_of_mem hf
  exact ((runs_inv (by decide) h).2 i f hi).nodup

/-- No worker ever sends to a closed channel, so collecting never panics. -/
theorem C45_no_panic {W : CWorld} {s : CState} (h : CRuns maxCollectWorkers W s) : s.panicked = false := (runs_inv (by decide) h).1

/-! ## C46: soundness and completeness -/

/-- C46: for every federation and request, every schedule, and a collector that may have been used before: when the collection has
returned, an id has been collected if and only if it is listed by an entity reachable from the anchor and passes the filters. -/
theorem C46_exact (E : CollectEnv) (q : CollectReq) {s0 s : CState} (h0 : CIdle maxCollectWorkers s0)
    (h : CRun maxCollectWorkers (E.world q) s0 q.anchor s) {r : CFrame} (hr : s.frames[s0.frames.length]? = some r)
    (hret : r.phase = .returned) (x : ID) : x ∈ r.out ↔ Member (Lists E) q.anchor x ∧ Passes E q x := by
  constructor
  · intro hx
    obtain ⟨hm, l, hl⟩ := (run_sound (by decide) h0 h _ r (Nat.le_refl _) hr).out x hx
    exact ⟨member_congr (fun _ _ h => canList_iff.mp h) hm, info_iff.mp ⟨l, Eq.symm hl⟩⟩
  · rintro ⟨hm, hp⟩
    exact run_complete (by decide) (world_stable E q) (fun x hx => listing_endpoint hx) h0 h hr hret x
      (member_congr (fun _ _ h => mem_listing.mpr h) hm) (info_iff.mpr hp)

/-- Soundness alone needs no stable answers: at every moment, whatever was collected was listed by an authority that was itself reached
through listings, and was found to pass the filters. -/
theorem C46_sound (W : CWorld) (anchor : ID) {s0 s : CState} (h0 : CIdle maxCollectWorkers s0) (h : CRun maxCollectWorkers W s0 anchor s)
    {r : CFrame} (hr : s.frames[s0.frames.length]? = some r) (x : ID) (hx : x ∈ r.out) :
    Member (CanList W) anchor x ∧ ∃ l, W.info x (some (true, l)) :=
  (run_sound (by decide) h0 h _ r (Nat.le_refl _) hr).out x hx

theorem idle_new (cap : Nat) : CIdle cap CState.new := ⟨.new, by simp [CState.new]⟩

/-- A smaller federation, collected completely: "t" lists "b" and "d", "b" lists "t", "d" has no listing and is not visited. -/
def Ex.cenv2 : CollectEnv where
  ec id := if id = "t" then some (Ex.listEC "t" "t/list") else if id = "b" then some (Ex.listEC "b" "b/list") else
    if id = "d" then some (Ex.listEC "d" "") else none
  listAt e := if e = "t/list" then some ["b", "d"] else if e = "b/list" then some ["t"] else none
  marks _ := []
  verifies _ _ := false
  fuzzy _ _ := false

/-- First the goroutine of "t", then that of "b" up to its nested call, the nested call (with a nested call for "t" that ends at once), then
everything else. -/
def Ex.cmoves1 : List Ex.Mv :=
  [.a 0, .a 0, .a 0, .a 0, .a 0, .a 0, .a 0, .a 0, .s 0 0, .s 0 0, .s 0 0, .a 1, .a 1, .a 1, .a 1, .a 1, .a 1, .a 1, .s 1 0, .s 1 0, .s 1 0]

def Ex.cmoves2 : List Ex.Mv :=
  [.a 2, .a 2, .a 2, .c 2, .c 2, .s 1 0, .s 1 0, .s 1 0, .s 1 0, .c 1, .c 1]

def Ex.cmoves3 : List Ex.Mv :=
  [.s 0 1, .s 0 1, .s 0 1, .s 0 1, .s 0 1, .s 0 0, .s 0 0, .s 0 0, .s 0 0, .s 0 0, .c 0, .c 0]

set_option maxRecDepth 4000 in
theorem Ex.cmid_eq : ∃ s, Ex.cexec maxCollectWorkers Ex.cenv2 (Ex.creq "t") (CState.new.collect "t") Ex.cmoves1 = some s ∧
    s = ⟨["b", "t"], [⟨"t", [], .gone, some ["b", "d"], [("b", .wait 1), ("d", .fetch)], 2, 2, ["b"], .running⟩,
      ⟨"b", ["t"], .gone, some ["t"], [("t", .wait 2)], 1, 1, ["t"], .running⟩, CFrame.start ["b", "t"] "t"], false⟩ := ⟨_, rfl, by decide⟩

/-- The end of that collection. -/
def Ex.cfinal : CState :=
  ⟨["b", "t"], [⟨"t", [], .gone, some ["b", "d"], [("b", .gone), ("d", .gone)], 0, 0, ["b", "d", "t"], .returned⟩,
    ⟨"b", ["t"], .gone, some ["t"], [("t", .gone)], 0, 0, ["t"], .returned⟩, ⟨"t", ["b", "t"], .gone, none, [], 0, 0, [], .returned⟩], false⟩

theorem Ex.cfinal_run : CRun maxCollectWorkers (Ex.cenv2.world (Ex.creq "t")) CState.new "t" Ex.cfinal := by
  obtain ⟨s, h, rfl⟩ := Ex.cmid_eq
  have h1 := Ex.cexec_run _ (.init) h
  have h2 := Ex.cexec_run Ex.cmoves2 h1 rfl
  exact Ex.cexec_run Ex.cmoves3 h2 rfl

/-- A finished collection meets the hypotheses of C45 and C46; the cycle through "t" is cut, and "t" itself was collected because "b" lists it. -/
example : CIdle maxCollectWorkers CState.new ∧ CRun maxCollectWorkers (Ex.cenv2.world (Ex.creq "t")) CState.new (Ex.creq "t").anchor Ex.cfinal ∧
    ∃ r, Ex.cfinal.frames[CState.new.frames.length]? = some r ∧ r.phase = .returned ∧ r.out = ["b", "d", "t"] :=
  ⟨idle_new _, Ex.cfinal_run, _, rfl, rfl, rfl⟩

example : Member (Lists Ex.cenv2) "t" "t" :=
  ⟨"b", .sub .anchor ⟨_, _, _, _, rfl, rfl, rfl, by decide, rfl, by decide⟩, _, _, _, _, rfl, rfl, rfl, by decide, rfl, by decide⟩

/-! ## C47: progress, and how many workers run -/

/-- C47, as far as it is true: in every state of every collector, each call of the collection routine has at most 128 running workers.
Missing: the same for a whole collection, which is false (below). -/
theorem C47_workers_partial {W : CWorld} {s : CState} (h : CRuns maxCollectWorkers W s) : ∀ f ∈ s.frames, workers f ≤ 128 := by
  intro f hf
  obtain ⟨i, hi⟩ := List.getElem?_of_mem hf
  have := (runs_inv (by decide) h).2 i f hi
  have h1 := this.sem
  have h2 := this.cap
  simp only [maxCollectWorkers] at h2
  omega

/-- C47: unless every call has returned, something can proceed. This holds for all answers given so far, and for every federation that is
asked from now on. -/
theorem C47_progress (E : CollectEnv) (q : CollectReq) {s : CState} (h : CRuns maxCollectWorkers CWorld.any s)
    (hne : ∃ f ∈ s.frames, f.phase ≠ .returned) : ∃ s', CStep maxCollectWorkers (E.world q) s s' :=
  progress (by decide) (fun a => ⟨_, rfl⟩) (fun id => ⟨_, rfl⟩) h hne

namespace Ex

/-- A chain of authorities: `x` lists `x ++ "a"` alone, up to length `n`. -/
def chainEnv (n : Nat) : CollectEnv where
  ec id := some (listEC id id)
  listAt e := if e.length ≤ n then some [e ++ "a"] else none
  marks _ := []
  verifies _ _ := false
  fuzzy _ _ := false

/-- Nothing is included. -/
def chainReq : CollectReq := ⟨"a", some [], "", []⟩

def chainId : Nat → ID
  | 0 => "a"
  | k+1 => chainId k ++ "a"

def chainVisited : Nat → List ID
  | 0 => []
  | k+1 => chainId k :: chainVisited k

/-- The `k`-th call while all below it are waiting. -/
def chainFrame (k : Nat) : CFrame := ⟨chainId k, chainVisited k, .spawn [], some [chainId (k+1)], [(chainId (k+1), .wait (k+1))], 2, 2, [], .running⟩

def chainFrames : Nat → List CFrame
  | 0 => []
  | k+1 => chainFrames k ++ [chainFrame k]

def chainState (k : Nat) : CState := ⟨chainVisited k, chainFrames k ++ [CFrame.start (chainVisited k) (chainId k)], false⟩

theorem chainId_length (k : Nat) : (chainId k).length = k + 1 := by
  induction k with
  | zero => rfl
  | succ k ih =>
    have : ("a" : String).length = 1 := rfl
    simp [chainId, String.length_append, ih, this]

theorem chainVisited_length (k : Nat) : ∀ x ∈ chainVisited k, x.length ≤ k := by
  induction k with
  | zero => simp [chainVisited]
  | succ k ih =>
    intro x hx
    rcases List.mem_cons.mp hx with rfl | hx
    · rw [chainId_length]
    · exact Nat.le_succ_of_le (ih x hx)

theorem chainId_fresh (k : Nat) : chainId k ∉ chainVisited k := by
  intro h
  have := chainVisited_length k _ h
  rw [chainId_length] at this
  omega

theorem chainFrames_length (k : Nat) : (chainFrames k).length = k := by
  induction k with
  | zero => rfl
  | succ k ih => simp [chainFrames, ih]

theorem chain_listing (n k : Nat) (h : k + 1 ≤ n) : (chainEnv n).listing (chainId k) = [chainId (k+1)] := by
  have he : (listEC (chainId k) (chainId k)).listEndpoint = chainId k := rfl
  have hne : chainId k ≠ "" := by
    intro e
    have := chainId_length k
    rw [e] at this
    cases this
  simp only [CollectEnv.listing, chainEnv, he, if_neg hne, chainId_length, if_pos h]
  rfl

theorem chain_info (n k : Nat) : (chainEnv n).info chainReq (chainId k) = some (false, true) := by
  have hne : chainId k ≠ "" := by
    intro e
    have := chainId_length k
    rw [e] at this
    cases this
  have he : (listEC (chainId k) (chainId k)).listEndpoint = chainId k := rfl
  have hi : includeEntity (chainEnv n) chainReq (listEC (chainId k) (chainId k)) ⟨fun t =>
      if t = .fed then some ⟨[⟨"FederationListEndpoint", "federation_list_endpoint", .str, .str (chainId k)⟩], [], []⟩ else none, none⟩ = false := rfl
  show some (includeEntity _ _ _ _, _) = _
  rw [hi, he]
  simp [hne]

theorem chain_step (n k : Nat) (h : k + 1 ≤ n) (hr : CRun maxCollectWorkers ((chainEnv n).world chainReq) CState.new "a" (chainState k)) :
    CRun maxCollectWorkers ((chainEnv n).world chainReq) CState.new "a" (chainState (k+1)) := by
  refine cexec_run [.a k, .a k, .a k, .a k, .s k 0, .s k 0] hr ?_
  have hl := chain_listing n k h
  have hi := chain_info n (k+1)
  have hcap : 1 < maxCollectWorkers := by decide
  simp [cexec, chainState, Mv.act, cstep, authStep, subStep, CState.set, CFrame.setSub, CFrame.start, hl, hi,
    hcap, chainId_fresh, chainVisited, chainFrames, chainFrame, chainFrames_length]

theorem chain_run (n k : Nat) (h : k ≤ n) : CRun maxCollectWorkers ((chainEnv n).world chainReq) CState.new "a" (chainState k) := by
  induction k with
  | zero => exact .init
  | succ k ih => exact chain_step n k h (ih (by omega))

theorem chain_workers (k : Nat) : allWorkers (chainState k) = 2 * k + 1 := by
  have : ((chainFrames k).map workers).sum = 2 * k := by
    induction k with
    | zero => rfl
    | succ k ih =>
      have hw : workers (chainFrame k) = 2 := rfl
      simp [chainFrames, ih, hw]
      omega
  have hw : workers (CFrame.start (chainVisited k) (chainId k)) = 1 := rfl
  simp [allWorkers, chainState, this, hw]

end Ex

/-- C47's bound is false for a whole collection: there is no number that bounds how many workers a collection has running, since each
nested call has its own 128 and the worker waiting for it keeps its own. The federations are finite chains. -/
theorem C47_global_bound_refuted : ¬ ∃ B, ∀ (E : CollectEnv) (q : CollectReq) (s : CState),
    CRun maxCollectWorkers (E.world q) CState.new q.anchor s → allWorkers s ≤ B := by
  rintro ⟨B, h⟩
  have := h (Ex.chainEnv B) Ex.chainReq _ (Ex.chain_run B B (Nat.le_refl _))
  rw [Ex.chain_workers] at this
  omega

/-! ## C75: the set of visited entities -/

/-- C75, as far as it is true: if no subordinate of the anchor has a listing endpoint, the set of visited entities is accessed by one goroutine
only. Missing: federations with intermediates, for which it is false (below). -/
theorem C75_flat_partial (E : CollectEnv) (q : CollectReq) (hflat : ∀ x st, Lists E q.anchor x → E.ec x = some st → st.listEndpoint = "")
    {s : CState} (h : CRun maxCollectWorkers (E.world q) CState.new q.anchor s) : ¬ Races s := by
  obtain ⟨hlen, _⟩ := flat_run (by decide) (by
    intro x hl b hx
    have hl := canList_iff.mp hl
    have hx : some (b, true) = E.info q x := hx
    unfold CollectEnv.info at hx
    cases he : E.ec x with
    | none => rw [he] at hx; cases hx
    | some st =>
      rw [he] at hx
      have := hflat x st hl he
      cases hm : st.metadata with
      | none => simp [hm] at hx
      | some m => simp [hm, this] at hx) (idle_new _) h
  rintro ⟨i, j, f, g, hne, hf, hg, _⟩
  have h1 := (List.getElem?_eq_some_iff.mp hf).1
  have h2 := (List.getElem?_eq_some_iff.mp hg).1
  simp only [CState.new, List.length_nil] at hlen
  omega

/-- "b" lists "d", "b" and "t"; if it listed only "d", it would be a flat federation: -/
example : ∃ (E : CollectEnv) (q : CollectReq), (∀ x st, Lists E q.anchor x → E.ec x = some st → st.listEndpoint = "") ∧ Lists E q.anchor "d" := by
  refine ⟨{ Ex.cenv with listAt := fun e => if e = "b/list" then some ["d"] else none }, Ex.creq "b", ?_, _, _, _, _, rfl, rfl, rfl, by decide, rfl, by decide⟩
  rintro x st ⟨_, _, _, l, h1, h2, h3, _, h5, hx⟩ he
  cases h1
  cases h2
  cases h3
  cases h5
  cases List.mem_singleton.mp hx
  cases he
  rfl

/-- C75 is false: in a federation with two intermediates below the anchor, two goroutines can write to the set of visited entities at the same
time. The set is a plain Go map, for which this is a fatal error. -/
theorem C75_visited_set_refuted : ¬ ∀ (E : CollectEnv) (q : CollectReq) (s : CState),
    CRun maxCollectWorkers (E.world q) CState.new q.anchor s → ¬ Races s := by
  intro h
  have hr : ∃ s, Ex.cexec maxCollectWorkers Ex.cenv (Ex.creq "t") (CState.new.collect "t")
      [.a 0, .a 0, .a 0, .a 0, .a 0, .s 0 0, .s 0 0, .s 0 0, .s 0 1, .s 0 1, .s 0 1, .a 1, .a 2] = some s ∧
      ∃ (f g : CFrame), s.frames[1]? = some f ∧ s.frames[2]? = some g ∧ f.apc = .add ∧ g.apc = .add :=
    ⟨_, rfl, _, _, rfl, rfl, rfl, rfl⟩
  obtain ⟨s, he, f, g, hf, hg, h1, h2⟩ := hr
  exact h Ex.cenv (Ex.creq "t") s (Ex.cexec_run _ .init he) ⟨1, 2, f, g, by decide, hf, hg, h1, .inl h2⟩

/-! ## C76: termination -/

/-- C76: if only finitely many entities are reachable from the anchor, then there is a bound for the length of all schedules of a collection. -/
theorem C76_terminates (E : CollectEnv) (q : CollectReq) (hfin : ∃ U : List ID, ∀ x, Below (Lists E) q.anchor x → x ∈ U) {s0 : CState}
    (h0 : CIdle maxCollectWorkers s0) : ∃ N : Nat, ∀ (n : Nat) (σ : Nat → CState), σ 0 = s0.collect q.anchor →
      (∀ k < n, CStep maxCollectWorkers (E.world q) (σ k) (σ (k+1))) → n ≤ N := by
  classical
  obtain ⟨U0, hU0⟩ := hfin
  let U := U0.filter (fun x => decide (Below (Lists E) q.anchor x))
  have hmem : ∀ x, x ∈ U ↔ Below (Lists E) q.anchor x := by
    intro x
    simp only [U, List.mem_filter, decide_eq_true_eq, and_iff_right_iff_imp]
    exact hU0 x
  have hA : q.anchor ∈ U := (hmem _).mpr .anchor
  have hU : ∀ a ∈ U, ∀ x ∈ E.listing a, x ∈ U := fun a ha x hx => (hmem x).mpr (.sub ((hmem a).mp ha) (mem_listing.mp hx))
  refine ⟨wState E.listing U.length (s0.collect q.anchor), ?_⟩
  intro n σ hσ hs
  have key : ∀ k ≤ n, CRun maxCollectWorkers (E.world q) s0 q.anchor (σ k) ∧
      wState E.listing U.length (σ k) + k ≤ wState E.listing U.length (s0.collect q.anchor) := by
    intro k
    induction k with
    | zero => exact fun _ => ⟨hσ ▸ .init, by rw [hσ]; exact Nat.le_refl _⟩
    | succ k ih =>
      intro hk
      obtain ⟨h1, h2⟩ := ih (by omega)
      have := step_weight (by decide) (world_stable E q) hA hU h0 h1 (hs k (by omega))
      exact ⟨.step h1 (hs k (by omega)), by omega⟩
  have := (key n (Nat.le_refl _)).2
  omega

/-- Where a schedule cannot be continued, the collection has returned. With the bound: every schedule that is continued as long as possible
ends with the result of C46. -/
theorem C76_ends_returned (E : CollectEnv) (q : CollectReq) {s0 s : CState} (h0 : CIdle maxCollectWorkers s0)
    (h : CRun maxCollectWorkers (E.world q) s0 q.anchor s) (hend : ¬ ∃ s', CStep maxCollectWorkers (E.world q) s s') :
    ∃ r, s.frames[s0.frames.length]? = some r ∧ r.phase = .returned := by
  have hruns := h.runs h0
  have hall : ∀ f ∈ s.frames, f.phase = .returned := by
    intro f hf
    refine Classical.byContradiction fun hp => hend ?_
    exact C47_progress E q hruns ⟨f, hf, hp⟩
  have hlen : s0.frames.length < s.frames.length := by
    have : ∀ t, CRun maxCollectWorkers (E.world q) s0 q.anchor t → s0.frames.length < t.frames.length := by
      intro t ht
      induction ht with
      | init => simp [CState.collect]
      | @step s s' hr hs ih =>
        obtain ⟨i, f, f', add, new, hf, he, rfl⟩ := cstep_eff hs (runs_inv (by decide) (hr.runs h0)).not_closed
        simp only [CState.after, List.length_append, List.length_set]
        omega
    exact this s h
  exact ⟨_, List.getElem?_eq_getElem hlen, hall _ (List.getElem_mem hlen)⟩

/-- C76: in a finite federation there is a schedule with which the collection returns. -/
theorem C76_returns (E : CollectEnv) (q : CollectReq) (hfin : ∃ U : List ID, ∀ x, Below (Lists E) q.anchor x → x ∈ U) {s0 : CState}
    (h0 : CIdle maxCollectWorkers s0) :
    ∃ s r, CRun maxCollectWorkers (E.world q) s0 q.anchor s ∧ s.frames[s0.frames.length]? = some r ∧ r.phase = .returned := by
  refine Classical.byContradiction fun hno => ?_
  obtain ⟨N, hN⟩ := C76_terminates E q hfin h0
  have hnext : ∀ s, CRun maxCollectWorkers (E.world q) s0 q.anchor s → ∃ s', CStep maxCollectWorkers (E.world q) s s' := by
    intro s hs
    refine Classical.byContradiction fun hend => hno ?_
    obtain ⟨r, h1, h2⟩ := C76_ends_returned E q h0 hs hend
    exact ⟨s, r, hs, h1, h2⟩
  let A := { s // CRun maxCollectWorkers (E.world q) s0 q.anchor s }
  have hA : ∀ a : A, ∃ b : A, CStep maxCollectWorkers (E.world q) a.1 b.1 := by
    rintro ⟨s, hs⟩
    obtain ⟨s', h⟩ := hnext s hs
    exact ⟨⟨s', .step hs h⟩, h⟩
  obtain ⟨f, hf⟩ := Classical.axiomOfChoice hA
  let σ : Nat → A := fun n => Nat.rec ⟨_, .init⟩ (fun _ a => f a) n
  have := hN (N + 1) (fun n => (σ n).1) rfl (fun k _ => hf (σ k))
  omega

/-- The example federation is finite although its listings form a cycle. -/
example : ∃ U : List ID, ∀ x, Below (Lists Ex.cenv2) (Ex.creq "t").anchor x → x ∈ U := by
  refine ⟨["t", "b", "d"], fun x hx => ?_⟩
  induction hx with
  | anchor => decide
  | sub _ hl ih =>
    obtain ⟨_, _, _, l, h1, h2, h3, _, h5, hx⟩ := hl
    simp only [List.mem_cons, List.not_mem_nil, or_false] at ih
    rcases ih with rfl | rfl | rfl
    · cases h1; cases h2; cases h3; cases h5
      revert hx; simp; rintro (rfl | rfl) <;> simp
    · cases h1; cases h2; cases h3; cases h5
      revert hx; simp; rintro rfl; simp
    · cases h1; cases h2; cases h3; cases h5

/-! ## C77: using a collector again -/

/-- C77, as far as it is true: whatever a collector was used for before, once these collections have returned the next one is not affected by
them. Missing: overlapping collections with one collector, for which it is false (below). -/
theorem C77_reuse_partial (E : CollectEnv) (q : CollectReq) {s0 s t : CState} (h0 : CIdle maxCollectWorkers s0)
    (h : CRun maxCollectWorkers (E.world q) s0 q.anchor s) (ht : CRun maxCollectWorkers (E.world q) CState.new q.anchor t) {r r' : CFrame}
    (hr : s.frames[s0.frames.length]? = some r) (hret : r.phase = .returned) (hr' : t.frames[0]? = some r') (hret' : r'.phase = .returned) (x : ID) :
    x ∈ r.out ↔ x ∈ r'.out := by
  rw [C46_exact E q h0 h hr hret x, C46_exact E q (idle_new _) ht hr' hret' x]

/-- A collector that was used before. -/
example : CIdle maxCollectWorkers Ex.cfinal := by
  refine ⟨Ex.cfinal_run.runs (idle_new _), ?_⟩
  intro f hf
  simp only [Ex.cfinal, List.mem_cons, List.not_mem_nil, or_false] at hf
  rcases hf with rfl | rfl | rfl <;> rfl

/-- C77 is false for overlapping collections: while the collection from "t" is about to visit "b", a second one from "b" marks "b" as visited,
and the first returns without "d", which "b" lists. -/
theorem C77_overlapping_refuted : ¬ ∀ (E : CollectEnv) (q : CollectReq) (s : CState), q.markTypes = [] → CRuns maxCollectWorkers (E.world q) s →
    ∀ (i : Nat) (f : CFrame), s.frames[i]? = some f → f.path = [] → f.phase = .returned →
      ∀ x, x ∈ f.out ↔ Member (Lists E) f.auth x ∧ Passes E q x := by
  intro h
  let E : CollectEnv := { Ex.cenv with listAt := fun e => if e = "t/list" then some ["b"] else if e = "b/list" then some ["d"] else none }
  have h1 : CRuns maxCollectWorkers (E.world (Ex.creq "t")) (CState.new.collect "t") := .call "t" .new
  have e1 : ∃ s, Ex.cexec maxCollectWorkers E (Ex.creq "t") (CState.new.collect "t")
      [.a 0, .a 0, .a 0, .a 0, .a 0, .a 0, .a 0, .s 0 0, .s 0 0, .s 0 0] = some s ∧
      s = ⟨["t"], [⟨"t", [], .gone, some ["b"], [("b", .wait 1)], 1, 1, ["b"], .running⟩, CFrame.start ["t"] "b"], false⟩ := ⟨_, rfl, by decide⟩
  obtain ⟨s, e1, rfl⟩ := e1
  have h2 := CRuns.call "b" (Ex.cexec_runs _ h1 e1)
  have e2 : ∃ s, Ex.cexec maxCollectWorkers E (Ex.creq "t") (CState.collect ⟨["t"], [⟨"t", [], .gone, some ["b"], [("b", .wait 1)], 1, 1, ["b"], .running⟩,
      CFrame.start ["t"] "b"], false⟩ "b")
      [.a 2, .a 2, .a 1, .a 1, .a 1, .c 1, .c 1, .s 0 0, .s 0 0, .s 0 0, .s 0 0, .c 0, .c 0] = some s ∧
      s.frames[0]? = some ⟨"t", [], .gone, some ["b"], [("b", .gone)], 0, 0, ["b"], .returned⟩ := ⟨_, rfl, rfl⟩
  obtain ⟨s, e2, hf⟩ := e2
  have h3 := Ex.cexec_runs _ h2 e2
  have := (h E (Ex.creq "t") s rfl h3 0 _ hf rfl rfl "d").mpr ⟨⟨"b", .sub .anchor ⟨_, _, _, _, rfl, rfl, rfl, by decide, rfl, by decide⟩,
    _, _, _, _, rfl, rfl, rfl, by decide, rfl, by decide⟩, _, _, rfl, rfl, (fun ts h => by cases h), (fun h => absurd rfl h), (fun t ht => by cases ht)⟩
  revert this
  decide

end Oidfed
