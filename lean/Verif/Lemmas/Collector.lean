import Verif.Spec.Collector
/-!
# Lemmas about collecting entities
-/

namespace Oidfed
open Oidfed.Spec

/-- The task returned. -/
def AuthPC.over : AuthPC → Bool
  | .ended | .released | .gone => true
  | _ => false

/-- The task returned. -/
def SubPC.over : SubPC → Bool
  | .ended | .released | .gone => true
  | _ => false

def AuthPC.alive : AuthPC → Bool
  | .gone => false
  | _ => true

def SubPC.alive : SubPC → Bool
  | .gone => false
  | _ => true

/-- Workers that have not called `wg.Done`. -/
def aliveCount (f : CFrame) : Nat := (if f.apc.alive then 1 else 0) + f.subs.countP (fun x => x.2.alive)

/-- A step as a change of the `i`-th call from `f` to `f'`, additions to the set of visited entities and new calls. -/
inductive CEff (cap : Nat) (W : CWorld) (s : CState) (f : CFrame) : CFrame → List ID → List CFrame → Prop where
  | checkSeen : f.apc = .check → f.auth ∈ s.visited → CEff cap W s f { f with apc := .ended } [] []
  | checkNew : f.apc = .check → f.auth ∉ s.visited → CEff cap W s f { f with apc := .add } [] []
  | add : f.apc = .add → CEff cap W s f { f with apc := .list } [f.auth] []
  | list (l : List ID) : f.apc = .list → W.lists f.auth l → CEff cap W s f { f with apc := .spawn l, listing := some l } [] []
  | spawn (id : ID) (rest : List ID) : f.apc = .spawn (id :: rest) → f.sem < cap →
      CEff cap W s f { f with apc := .spawn rest, subs := f.subs ++ [(id, .fetch)], sem := f.sem + 1, wg := f.wg + 1 } [] []
  | spawnEnd : f.apc = .spawn [] → CEff cap W s f { f with apc := .ended } [] []
  | authRelease : f.apc = .ended → CEff cap W s f { f with apc := .released, sem := f.sem - 1 } [] []
  | authDone : f.apc = .released → CEff cap W s f { f with apc := .gone, wg := f.wg - 1 } [] []
  | fetchNone (j : Nat) (id : ID) : f.subs[j]? = some (id, .fetch) → W.info id none → CEff cap W s f (f.setSub j id .ended) [] []
  | fetchIn (j : Nat) (id : ID) (l : Bool) : f.subs[j]? = some (id, .fetch) → W.info id (some (true, l)) →
      CEff cap W s f (f.setSub j id (.send l)) [] []
  | fetchOut (j : Nat) (id : ID) (l : Bool) : f.subs[j]? = some (id, .fetch) → W.info id (some (false, l)) →
      CEff cap W s f (f.setSub j id (.nest l)) [] []
  | send (j : Nat) (id : ID) (l : Bool) : f.subs[j]? = some (id, .send l) → f.phase = .running →
      CEff cap W s f ((f.setSub j id (.nest l)).receive id) [] []
  | nestNo (j : Nat) (id : ID) : f.subs[j]? = some (id, .nest false) → CEff cap W s f (f.setSub j id .ended) [] []
  | nestYes (j : Nat) (id : ID) : f.subs[j]? = some (id, .nest true) →
      CEff cap W s f (f.setSub j id (.wait s.frames.length)) [] [CFrame.start (f.auth :: f.path) id]
  | join (j : Nat) (id : ID) (c : Nat) (g : CFrame) : f.subs[j]? = some (id, .wait c) → s.frames[c]? = some g → g.phase = .returned →
      CEff cap W s f (f.setSub j id (.fwd g.out)) [] []
  | fwd (j : Nat) (id x : ID) (rest : List ID) : f.subs[j]? = some (id, .fwd (x :: rest)) → f.phase = .running →
      CEff cap W s f ((f.setSub j id (.fwd rest)).receive x) [] []
  | fwdEnd (j : Nat) (id : ID) : f.subs[j]? = some (id, .fwd []) → CEff cap W s f (f.setSub j id .ended) [] []
  | subRelease (j : Nat) (id : ID) : f.subs[j]? = some (id, .ended) →
      CEff cap W s f { f.setSub j id .released with sem := f.sem - 1 } [] []
  | subDone (j : Nat) (id : ID) : f.subs[j]? = some (id, .released) →
      CEff cap W s f { f.setSub j id .gone with wg := f.wg - 1 } [] []
  | close : f.phase = .running → f.wg = 0 → CEff cap W s f { f with phase := .closed } [] []
  | ret : f.phase = .closed → CEff cap W s f { f with phase := .returned } [] []

/-- The state after such a step. -/
def CState.after (s : CState) (i : Nat) (f' : CFrame) (add : List ID) (new : List CFrame) : CState :=
  ⟨add ++ s.visited, s.frames.set i f' ++ new, s.panicked⟩

/-- A worker is sending although the channel is closed. -/
def SendsClosed (s : CState) : Prop :=
  ∃ (i : Nat) (f : CFrame) (j : Nat) (id : ID) (pc : SubPC), s.frames[i]? = some f ∧ f.subs[j]? = some (id, pc) ∧ pc.alive = true ∧
    f.phase ≠ .running

theorem cstep_eff {cap : Nat} {W : CWorld} {s s' : CState} (h : CStep cap W s s') (hc : ¬ SendsClosed s) :
    ∃ i f f' add new, s.frames[i]? = some f ∧ CEff cap W s f f' add new ∧ s' = s.after i f' add new := by
  obtain ⟨a, ha, h⟩ := h
  unfold cstep at h
  split at h
  · cases h
  rename_i hp
  cases a with
  | auth i listing =>
    simp only at h
    split at h
    · cases h
    rename_i f hf
    unfold authStep at h
    cases hapc : f.apc with
    | check =>
      rw [hapc] at h
      simp only [Option.some.injEq] at h
      by_cases hv : f.auth ∈ s.visited
      · have : s.visited.contains f.auth = true := by simpa using hv
        rw [this, if_pos rfl] at h
        exact ⟨i, f, _, _, _, hf, .checkSeen hapc hv, by rw [← h]; simp [CState.set, CState.after]⟩
      · have : s.visited.contains f.auth = false := by simpa using hv
        rw [this] at h
        exact ⟨i, f, _, _, _, hf, .checkNew hapc hv, by rw [← h]; simp [CState.set, CState.after]⟩
    | add =>
      rw [hapc] at h
      simp only [Option.some.injEq] at h
      exact ⟨i, f, _, _, _, hf, .add hapc, by rw [← h]; simp [CState.set, CState.after]⟩
    | list =>
      rw [hapc] at h
      simp only [Option.some.injEq] at h
      exact ⟨i, f, _, _, _, hf, .list listing hapc (ha f hf hapc), by rw [← h]; simp [CState.set, CState.after]⟩
    | spawn rest =>
      rw [hapc] at h
      cases rest with
      | nil =>
        simp only [Option.some.injEq] at h
        exact ⟨i, f, _, _, _, hf, .spawnEnd hapc, by rw [← h]; simp [CState.set, CState.after]⟩
      | cons id rest =>
        simp only at h
        split at h
        · rename_i hsem
          simp only [Option.some.injEq] at h
          exact ⟨i, f, _, _, _, hf, .spawn id rest hapc hsem, by rw [← h]; simp [CState.set, CState.after]⟩
        · cases h
    | ended =>
      rw [hapc] at h
      simp only [Option.some.injEq] at h
      exact ⟨i, f, _, _, _, hf, .authRelease hapc, by rw [← h]; simp [CState.set, CState.after]⟩
    | released =>
      rw [hapc] at h
      simp only [Option.some.injEq] at h
      exact ⟨i, f, _, _, _, hf, .authDone hapc, by rw [← h]; simp [CState.set, CState.after]⟩
    | gone =>
      rw [hapc] at h
      cases h
  | sub i j info =>
    simp only at h
    split at h
    · cases h
    rename_i f hf
    split at h
    · cases h
    rename_i id pc hj
    cases pc with
    | fetch =>
      simp only [subStep, Option.some.injEq] at h
      have hi := ha f id hf hj
      cases info with
      | none => exact ⟨i, f, _, _, _, hf, .fetchNone j id hj hi, by rw [← h]; simp [CState.set, CState.after]⟩
      | some bl =>
        obtain ⟨b, l⟩ := bl
        cases b with
        | true => exact ⟨i, f, _, _, _, hf, .fetchIn j id l hj hi, by rw [← h]; simp [CState.set, CState.after]⟩
        | false => exact ⟨i, f, _, _, _, hf, .fetchOut j id l hj hi, by rw [← h]; simp [CState.set, CState.after]⟩
    | send l =>
      simp only [subStep, Option.some.injEq] at h
      have hph : f.phase = .running := by
        by_contra hne
        exact hc ⟨i, f, j, id, _, hf, hj, rfl, hne⟩
      simp only [sendStep, hph] at h
      exact ⟨i, f, _, _, _, hf, .send j id l hj hph, by rw [← h]; simp [CState.set, CState.after]⟩
    | nest l =>
      cases l with
      | false =>
        simp only [subStep, Option.some.injEq] at h
        exact ⟨i, f, _, _, _, hf, .nestNo j id hj, by rw [← h]; simp [CState.set, CState.after]⟩
      | true =>
        simp only [subStep, Option.some.injEq] at h
        exact ⟨i, f, _, _, _, hf, .nestYes j id hj, by rw [← h]; simp [CState.set, CState.after]⟩
    | wait c =>
      simp only [subStep] at h
      split at h
      · cases h
      rename_i g hg
      split at h
      · rename_i hr
        simp only [Option.some.injEq] at h
        exact ⟨i, f, _, _, _, hf, .join j id c g hj hg hr, by rw [← h]; simp [CState.set, CState.after]⟩
      · cases h
    | fwd rest =>
      cases rest with
      | nil =>
        simp only [subStep, Option.some.injEq] at h
        exact ⟨i, f, _, _, _, hf, .fwdEnd j id hj, by rw [← h]; simp [CState.set, CState.after]⟩
      | cons x rest =>
        simp only [subStep, Option.some.injEq] at h
        have hph : f.phase = .running := by
          by_contra hne
          exact hc ⟨i, f, j, id, _, hf, hj, rfl, hne⟩
        simp only [sendStep, hph] at h
        exact ⟨i, f, _, _, _, hf, .fwd j id x rest hj hph, by rw [← h]; simp [CState.set, CState.after]⟩
    | ended =>
      simp only [subStep, Option.some.injEq] at h
      exact ⟨i, f, _, _, _, hf, .subRelease j id hj, by rw [← h]; simp [CState.set, CState.after]⟩
    | released =>
      simp only [subStep, Option.some.injEq] at h
      exact ⟨i, f, _, _, _, hf, .subDone j id hj, by rw [← h]; simp [CState.set, CState.after]⟩
    | gone => cases h
  | call i =>
    simp only at h
    split at h
    · cases h
    rename_i f hf
    unfold callStep at h
    cases hph : f.phase with
    | running =>
      rw [hph] at h
      simp only at h
      split at h
      · rename_i hw
        simp only [Option.some.injEq] at h
        exact ⟨i, f, _, _, _, hf, .close hph hw, by rw [← h]; simp [CState.set, CState.after]⟩
      · cases h
    | closed =>
      rw [hph] at h
      simp only [Option.some.injEq] at h
      exact ⟨i, f, _, _, _, hf, .ret hph, by rw [← h]; simp [CState.set, CState.after]⟩
    | returned =>
      rw [hph] at h
      cases h


/-! ## Counting -/

theorem countP_set_eq {α : Type} (p : α → Bool) (l : List α) (j : Nat) (x y : α) (h : l[j]? = some x) :
    (l.set j y).countP p + (if p x then 1 else 0) = l.countP p + (if p y then 1 else 0) := by
  induction l generalizing j with
  | nil => simp at h
  | cons a l ih =>
    cases j with
    | zero =>
      simp only [List.getElem?_cons_zero, Option.some.injEq] at h
      subst h
      simp only [List.set_cons_zero, List.countP_cons]
      omega
    | succ j =>
      simp only [List.getElem?_cons_succ] at h
      simp only [List.set_cons_succ, List.countP_cons]
      have := ih j h
      omega

/-- Invariants of each call for itself. -/
structure FInv (cap : Nat) (f : CFrame) : Prop where
  sem : f.sem = workers f
  wg : f.wg = aliveCount f
  cap : f.sem ≤ cap
  nodup : f.out.Nodup
  phase : f.phase ≠ .running → f.wg = 0

theorem receive_nodup {f : CFrame} (h : f.out.Nodup) (x : ID) : (f.receive x).out.Nodup := by
  unfold CFrame.receive
  split
  · exact h
  · rename_i hx
    simp only [List.contains_eq_mem, decide_eq_true_eq] at hx
    simp only [List.nodup_append, List.nodup_cons, List.not_mem_nil, not_false_eq_true, List.nodup_nil, and_self, true_and]
    refine ⟨h, ?_⟩
    intro a ha b hb
    simp only [List.mem_singleton] at hb
    rintro rfl
    exact hx (hb ▸ ha)

@[simp] theorem receive_apc (f : CFrame) (x : ID) : (f.receive x).apc = f.apc := by unfold CFrame.receive; split <;> rfl
@[simp] theorem receive_subs (f : CFrame) (x : ID) : (f.receive x).subs = f.subs := by unfold CFrame.receive; split <;> rfl
@[simp] theorem receive_sem (f : CFrame) (x : ID) : (f.receive x).sem = f.sem := by unfold CFrame.receive; split <;> rfl
@[simp] theorem receive_wg (f : CFrame) (x : ID) : (f.receive x).wg = f.wg := by unfold CFrame.receive; split <;> rfl
@[simp] theorem receive_phase (f : CFrame) (x : ID) : (f.receive x).phase = f.phase := by unfold CFrame.receive; split <;> rfl
@[simp] theorem receive_auth (f : CFrame) (x : ID) : (f.receive x).auth = f.auth := by unfold CFrame.receive; split <;> rfl
@[simp] theorem receive_path (f : CFrame) (x : ID) : (f.receive x).path = f.path := by unfold CFrame.receive; split <;> rfl
@[simp] theorem receive_listing (f : CFrame) (x : ID) : (f.receive x).listing = f.listing := by unfold CFrame.receive; split <;> rfl

theorem mem_receive (f : CFrame) (x y : ID) : y ∈ (f.receive x).out ↔ y ∈ f.out ∨ y = x := by
  unfold CFrame.receive
  split
  · rename_i hx
    simp only [List.contains_eq_mem, decide_eq_true_eq] at hx
    constructor
    · exact .inl
    · rintro (h | rfl)
      · exact h
      · exact hx
  · simp

theorem workers_setSub {f : CFrame} {j : Nat} {id : ID} {pc : SubPC} (hj : f.subs[j]? = some (id, pc)) (pc' : SubPC) :
    workers (f.setSub j id pc') + (if SubRunning pc then 1 else 0) = workers f + (if SubRunning pc' then 1 else 0) := by
  have := countP_set_eq (fun x : ID × SubPC => SubRunning x.2) f.subs j _ (id, pc') hj
  simp only [workers, CFrame.setSub] at *
  rcases Bool.eq_false_or_eq_true (AuthRunning f.apc) with h | h <;> simp only [h, if_true, Bool.false_eq_true, if_false] <;> omega

theorem alive_setSub {f : CFrame} {j : Nat} {id : ID} {pc : SubPC} (hj : f.subs[j]? = some (id, pc)) (pc' : SubPC) :
    aliveCount (f.setSub j id pc') + (if pc.alive then 1 else 0) = aliveCount f + (if pc'.alive then 1 else 0) := by
  have := countP_set_eq (fun x : ID × SubPC => x.2.alive) f.subs j _ (id, pc') hj
  simp only [aliveCount, CFrame.setSub] at *
  rcases Bool.eq_false_or_eq_true f.apc.alive with h | h <;> simp only [h, if_true, Bool.false_eq_true, if_false] <;> omega

theorem alive_pos {f : CFrame} {j : Nat} {id : ID} {pc : SubPC} (hj : f.subs[j]? = some (id, pc)) (ha : pc.alive = true) :
    0 < aliveCount f := by
  have : 0 < f.subs.countP (fun x => x.2.alive) := List.countP_pos_iff.mpr ⟨_, List.mem_of_getElem? hj, ha⟩
  unfold aliveCount
  omega

theorem FInv.running {cap : Nat} {f : CFrame} (h : FInv cap f) {j : Nat} {id : ID} {pc : SubPC} (hj : f.subs[j]? = some (id, pc))
    (ha : pc.alive = true) : f.phase = .running := by
  by_contra hne
  have := h.phase hne
  have := alive_pos hj ha
  have := h.wg
  omega

theorem FInv.running_auth {cap : Nat} {f : CFrame} (h : FInv cap f) (ha : f.apc.alive = true) : f.phase = .running := by
  by_contra hne
  have := h.phase hne
  have := h.wg
  unfold aliveCount at this
  rw [ha] at this
  simp only [if_true] at this
  omega

/-- A worker that is still running moves and still runs. -/
theorem FInv.move {cap : Nat} {f : CFrame} (h : FInv cap f) {j : Nat} {id : ID} {pc pc' : SubPC} (hj : f.subs[j]? = some (id, pc))
    (h1 : SubRunning pc = true) (h2 : SubRunning pc' = true) (h3 : pc.alive = true) (h4 : pc'.alive = true) :
    FInv cap (f.setSub j id pc') := by
  have hw := workers_setSub hj pc'
  have ha := alive_setSub hj pc'
  rw [h1, h2] at hw
  rw [h3, h4] at ha
  exact ⟨by have := h.sem; show f.sem = _; omega, by have := h.wg; show f.wg = _; omega, h.cap, h.nodup, h.phase⟩

theorem FInv.received {cap : Nat} {f : CFrame} (h : FInv cap f) (x : ID) : FInv cap (f.receive x) := by
  refine ⟨?_, ?_, ?_, receive_nodup h.nodup x, ?_⟩
  · have := h.sem
    simpa [workers] using this
  · have := h.wg
    simpa [aliveCount] using this
  · simpa using h.cap
  · simpa using h.phase

theorem eff_finv {cap : Nat} {W : CWorld} {s : CState} {f f' : CFrame} {add : List ID} {new : List CFrame} (h : CEff cap W s f f' add new)
    (hi : FInv cap f) : FInv cap f' := by
  cases h with
  | checkSeen h _ => exact ⟨by have := hi.sem; simpa [workers, AuthRunning, h] using this, by have := hi.wg; simpa [aliveCount, AuthPC.alive, h] using this, hi.cap, hi.nodup, hi.phase⟩
  | checkNew h _ => exact ⟨by have := hi.sem; simpa [workers, AuthRunning, h] using this, by have := hi.wg; simpa [aliveCount, AuthPC.alive, h] using this, hi.cap, hi.nodup, hi.phase⟩
  | add h => exact ⟨by have := hi.sem; simpa [workers, AuthRunning, h] using this, by have := hi.wg; simpa [aliveCount, AuthPC.alive, h] using this, hi.cap, hi.nodup, hi.phase⟩
  | list l h _ => exact ⟨by have := hi.sem; simpa [workers, AuthRunning, h] using this, by have := hi.wg; simpa [aliveCount, AuthPC.alive, h] using this, hi.cap, hi.nodup, hi.phase⟩
  | spawn id rest h hs =>
    refine ⟨?_, ?_, hs, hi.nodup, ?_⟩
    · have := hi.sem
      simp only [workers, h, AuthRunning, if_true, List.countP_append, List.countP_cons, List.countP_nil, SubRunning] at this ⊢
      omega
    · have := hi.wg
      simp only [aliveCount, h, AuthPC.alive, if_true, List.countP_append, List.countP_cons, List.countP_nil, SubPC.alive] at this ⊢
      omega
    · intro hne
      have := hi.running_auth (by rw [h]; rfl)
      exact absurd this hne
  | spawnEnd h => exact ⟨by have := hi.sem; simpa [workers, AuthRunning, h] using this, by have := hi.wg; simpa [aliveCount, AuthPC.alive, h] using this, hi.cap, hi.nodup, hi.phase⟩
  | authRelease h =>
    refine ⟨?_, ?_, ?_, hi.nodup, hi.phase⟩
    · have := hi.sem
      simp only [workers, h, AuthRunning, if_true, Bool.false_eq_true, if_false] at this ⊢
      omega
    · have := hi.wg
      simpa [aliveCount, AuthPC.alive, h] using this
    · have := hi.cap
      simp only
      omega
  | authDone h =>
    refine ⟨?_, ?_, hi.cap, hi.nodup, ?_⟩
    · have := hi.sem
      simpa [workers, AuthRunning, h] using this
    · have := hi.wg
      simp only [aliveCount, h, AuthPC.alive, if_true, Bool.false_eq_true, if_false] at this ⊢
      omega
    · intro hne
      have := hi.phase hne
      simp only
      omega
  | fetchNone j id hj _ => exact hi.move hj rfl rfl rfl rfl
  | fetchIn j id l hj _ => exact hi.move hj rfl rfl rfl rfl
  | fetchOut j id l hj _ => exact hi.move hj rfl rfl rfl rfl
  | send j id l hj _ => exact (hi.move hj rfl rfl rfl rfl).received id
  | nestNo j id hj => exact hi.move hj rfl rfl rfl rfl
  | nestYes j id hj => exact hi.move hj rfl rfl rfl rfl
  | join j id c g hj _ _ => exact hi.move hj rfl rfl rfl rfl
  | fwd j id x rest hj _ => exact (hi.move hj rfl rfl rfl rfl).received x
  | fwdEnd j id hj => exact hi.move hj rfl rfl rfl rfl
  | subRelease j id hj =>
    have hw := workers_setSub hj .released
    have ha := alive_setSub hj .released
    simp only [SubRunning, SubPC.alive, if_true, Bool.false_eq_true, if_false] at hw ha
    refine ⟨?_, ?_, ?_, hi.nodup, hi.phase⟩
    · have := hi.sem
      show f.sem - 1 = workers (f.setSub j id .released)
      omega
    · have := hi.wg
      show f.wg = aliveCount (f.setSub j id .released)
      omega
    · have := hi.cap
      simp only
      omega
  | subDone j id hj =>
    have hw := workers_setSub hj .gone
    have ha := alive_setSub hj .gone
    simp only [SubRunning, SubPC.alive, if_true, Bool.false_eq_true, if_false] at hw ha
    refine ⟨?_, ?_, hi.cap, hi.nodup, ?_⟩
    · have := hi.sem
      show f.sem = workers (f.setSub j id .gone)
      omega
    · have := hi.wg
      show f.wg - 1 = aliveCount (f.setSub j id .gone)
      omega
    · intro hne
      have := hi.phase hne
      show f.wg - 1 = 0
      omega
  | close h hw => exact ⟨hi.sem, hi.wg, hi.cap, hi.nodup, fun _ => hw⟩
  | ret h => exact ⟨hi.sem, hi.wg, hi.cap, hi.nodup, fun _ => hi.phase (by rw [h]; decide)⟩

theorem eff_new {cap : Nat} {W : CWorld} {s : CState} {f f' : CFrame} {add : List ID} {new : List CFrame} (h : CEff cap W s f f' add new) :
    new = [] ∨ ∃ j id, f.subs[j]? = some (id, .nest true) ∧ f' = f.setSub j id (.wait s.frames.length) ∧ add = [] ∧
      new = [CFrame.start (f.auth :: f.path) id] := by
  cases h <;> first | exact .inl rfl | (right; exact ⟨_, _, by assumption, rfl, rfl, rfl⟩)

theorem start_finv {cap : Nat} (hcap : 0 < cap) (path : List ID) (auth : ID) : FInv cap (CFrame.start path auth) :=
  ⟨rfl, rfl, hcap, List.nodup_nil, fun h => absurd rfl h⟩

/-- The invariants of all calls. -/
def AllInv (cap : Nat) (s : CState) : Prop := s.panicked = false ∧ ∀ (i : Nat) (f : CFrame), s.frames[i]? = some f → FInv cap f

theorem AllInv.not_closed {cap : Nat} {s : CState} (h : AllInv cap s) : ¬ SendsClosed s := by
  rintro ⟨i, f, j, id, pc, hf, hj, ha, hne⟩
  exact hne ((h.2 i f hf).running hj ha)

/-- The calls after a step. -/
theorem after_get {s : CState} {i : Nat} {f f' : CFrame} {add : List ID} {new : List CFrame} (hf : s.frames[i]? = some f) {k : Nat} {g : CFrame}
    (h : (s.after i f' add new).frames[k]? = some g) :
    (k = i ∧ g = f') ∨ (k ≠ i ∧ s.frames[k]? = some g) ∨ (∃ m, k = s.frames.length + m ∧ new[m]? = some g) := by
  have hi : i < s.frames.length := (List.getElem?_eq_some_iff.mp hf).1
  simp only [CState.after] at h
  by_cases hk : k < s.frames.length
  · rw [List.getElem?_append_left (by simpa using hk), List.getElem?_set] at h
    by_cases hik : i = k
    · subst hik
      simp only [if_true] at h
      split at h
      · simp only [Option.some.injEq] at h
        exact .inl ⟨rfl, h.symm⟩
      · exact absurd hk (by assumption)
    · rw [if_neg hik] at h
      exact .inr (.inl ⟨fun e => hik e.symm, h⟩)
  · rw [List.getElem?_append_right (by simpa using hk)] at h
    simp only [List.length_set] at h
    exact .inr (.inr ⟨k - s.frames.length, by omega, h⟩)

theorem after_self {s : CState} {i : Nat} {f f' : CFrame} {add : List ID} {new : List CFrame} (hf : s.frames[i]? = some f) :
    (s.after i f' add new).frames[i]? = some f' := by
  have hi : i < s.frames.length := (List.getElem?_eq_some_iff.mp hf).1
  simp only [CState.after]
  rw [List.getElem?_append_left (by simpa using hi), List.getElem?_set_self hi]

theorem after_other {s : CState} {i : Nat} {f' : CFrame} {add : List ID} {new : List CFrame} {k : Nat} {g : CFrame} (hk : k ≠ i)
    (h : s.frames[k]? = some g) : (s.after i f' add new).frames[k]? = some g := by
  have hi : k < s.frames.length := (List.getElem?_eq_some_iff.mp h).1
  simp only [CState.after]
  rw [List.getElem?_append_left (by simpa using hi), List.getElem?_set_ne (fun e => hk e.symm), h]

theorem after_new {s : CState} {i : Nat} {f' : CFrame} {add : List ID} (g : CFrame) :
    (s.after i f' add [g]).frames[s.frames.length]? = some g := by
  simp only [CState.after]
  rw [List.getElem?_append_right (by simp)]
  simp

theorem AllInv.step {cap : Nat} (hcap : 0 < cap) {W : CWorld} {s s' : CState} (hi : AllInv cap s) (h : CStep cap W s s') : AllInv cap s' := by
  obtain ⟨i, f, f', add, new, hf, he, rfl⟩ := cstep_eff h hi.not_closed
  refine ⟨hi.1, ?_⟩
  intro k g hg
  rcases after_get hf hg with ⟨_, rfl⟩ | ⟨_, hg⟩ | ⟨m, _, hg⟩
  · exact eff_finv he (hi.2 i f hf)
  · exact hi.2 k g hg
  · rcases eff_new he with rfl | ⟨_, _, _, _, _, rfl⟩
    · simp at hg
    · rw [List.getElem?_singleton] at hg
      split at hg
      · simp only [Option.some.injEq] at hg
        subst hg
        exact start_finv hcap _ _
      · cases hg

theorem AllInv.call {cap : Nat} (hcap : 0 < cap) {s : CState} (hi : AllInv cap s) (anchor : ID) : AllInv cap (s.collect anchor) := by
  refine ⟨hi.1, ?_⟩
  intro k g hg
  simp only [CState.collect] at hg
  by_cases hk : k < s.frames.length
  · rw [List.getElem?_append_left hk] at hg
    exact hi.2 k g hg
  · rw [List.getElem?_append_right (by omega), List.getElem?_singleton] at hg
    split at hg
    · simp only [Option.some.injEq] at hg
      subst hg
      exact start_finv hcap _ _
    · cases hg

theorem runs_inv {cap : Nat} (hcap : 0 < cap) {W : CWorld} {s : CState} (h : CRuns cap W s) : AllInv cap s := by
  induction h with
  | new => exact ⟨rfl, by simp [CState.new]⟩
  | call anchor _ ih => exact ih.call hcap anchor
  | step _ hs ih => exact ih.step hcap hs

theorem eff_not_returned {cap : Nat} {W : CWorld} {s : CState} {f f' : CFrame} {add : List ID} {new : List CFrame} (h : CEff cap W s f f' add new)
    (hi : FInv cap f) : f.phase ≠ .returned := by
  intro hr
  have key : f.phase ≠ .running := by rw [hr]; decide
  cases h with
  | checkSeen h _ => exact key (hi.running_auth (by rw [h]; rfl))
  | checkNew h _ => exact key (hi.running_auth (by rw [h]; rfl))
  | add h => exact key (hi.running_auth (by rw [h]; rfl))
  | list l h hl => exact key (hi.running_auth (by rw [h]; rfl))
  | spawn id rest h _ => exact key (hi.running_auth (by rw [h]; rfl))
  | spawnEnd h => exact key (hi.running_auth (by rw [h]; rfl))
  | authRelease h => exact key (hi.running_auth (by rw [h]; rfl))
  | authDone h => exact key (hi.running_auth (by rw [h]; rfl))
  | fetchNone j id hj _ => exact key (hi.running hj rfl)
  | fetchIn j id l hj hw => exact key (hi.running hj rfl)
  | fetchOut j id l hj _ => exact key (hi.running hj rfl)
  | send j id l hj _ => exact key (hi.running hj rfl)
  | nestNo j id hj => exact key (hi.running hj rfl)
  | nestYes j id hj => exact key (hi.running hj rfl)
  | join j id c g hj hg _ => exact key (hi.running hj rfl)
  | fwd j id x rest hj _ => exact key (hi.running hj rfl)
  | fwdEnd j id hj => exact key (hi.running hj rfl)
  | subRelease j id hj => exact key (hi.running hj rfl)
  | subDone j id hj => exact key (hi.running hj rfl)
  | close h hw => exact key h
  | ret h => rw [h] at hr; cases hr

theorem CStep.any {cap : Nat} {W : CWorld} {s s' : CState} (h : CStep cap W s s') : CStep cap CWorld.any s s' := by
  obtain ⟨a, _, h⟩ := h
  refine ⟨a, ?_, h⟩
  cases a
  · exact fun _ _ _ => trivial
  · exact fun _ _ _ _ => trivial
  · trivial

theorem CRun.runs {cap : Nat} {W : CWorld} {s0 : CState} {anchor : ID} {s : CState} (h : CRun cap W s0 anchor s) (h0 : CIdle cap s0) :
    CRuns cap CWorld.any s := by
  induction h with
  | init => exact .call anchor h0.1
  | step _ hs ih => exact .step ih hs.any

/-- The calls of `collect` that belong to earlier calls of `CollectEntities` do not move. -/
theorem CRun.old {cap : Nat} (hcap : 0 < cap) {W : CWorld} {s0 : CState} {anchor : ID} {s : CState} (h : CRun cap W s0 anchor s)
    (h0 : CIdle cap s0) : s0.frames.length < s.frames.length ∧
      ∀ (i : Nat) (f : CFrame), i < s0.frames.length → s.frames[i]? = some f → f.phase = .returned := by
  induction h with
  | init =>
    refine ⟨by simp [CState.collect], ?_⟩
    intro i f hi hf
    simp only [CState.collect] at hf
    rw [List.getElem?_append_left hi] at hf
    exact h0.2 f (List.mem_of_getElem? hf)
  | @step s s' hr hs ih =>
    have hinv := runs_inv hcap (hr.runs h0)
    obtain ⟨i, f, f', add, new, hf, he, rfl⟩ := cstep_eff hs hinv.not_closed
    refine ⟨by simp only [CState.after, List.length_append, List.length_set]; omega, ?_⟩
    intro k g hk hg
    rcases after_get hf hg with ⟨rfl, rfl⟩ | ⟨_, hg⟩ | ⟨m, hm, _⟩
    · exact absurd (ih.2 k f hk hf) (eff_not_returned he (hinv.2 k f hf))
    · exact ih.2 k g hk hg
    · omega

/-- A step is one of a call that belongs to this call of `CollectEntities`. -/
theorem CRun.young {cap : Nat} (hcap : 0 < cap) {W : CWorld} {s0 : CState} {anchor : ID} {s : CState} (h : CRun cap W s0 anchor s)
    (h0 : CIdle cap s0) {i : Nat} {f f' : CFrame} {add : List ID} {new : List CFrame} (hf : s.frames[i]? = some f)
    (he : CEff cap W s f f' add new) : s0.frames.length ≤ i := by
  by_contra hlt
  exact eff_not_returned he ((runs_inv hcap (h.runs h0)).2 i f hf) ((h.old hcap h0).2 i f (by omega) hf)

theorem init_get {s0 : CState} {anchor : ID} {i : Nat} {f : CFrame} (hi : s0.frames.length ≤ i) (h : (s0.collect anchor).frames[i]? = some f) :
    i = s0.frames.length ∧ f = CFrame.start [] anchor := by
  simp only [CState.collect] at h
  rw [List.getElem?_append_right hi] at h
  rw [List.getElem?_singleton] at h
  split at h
  · simp only [Option.some.injEq] at h
    exact ⟨by omega, h.symm⟩
  · cases h


/-! ## Structure -/

theorem mem_setSub {f : CFrame} {j : Nat} {id : ID} {pc : SubPC} {y : ID × SubPC} (h : y ∈ (f.setSub j id pc).subs) :
    y ∈ f.subs ∨ y = (id, pc) := List.mem_or_eq_of_mem_set h

theorem mem_singleton_get {g f : CFrame} {m : Nat} (h : [f][m]? = some g) : m = 0 ∧ g = f := by
  cases m with
  | zero => exact ⟨rfl, by simpa using h.symm⟩
  | succ m => simp at h

/-- How the `k`-th call `g` is linked to the worker at `pc` that started it, in the call `f`. -/
def Link (k : Nat) (g f : CFrame) (pc : SubPC) : Prop :=
  pc = .wait k ∨ (g.phase = .returned ∧ ((∃ rest, pc = .fwd rest ∧ ∀ x ∈ g.out, x ∈ f.out ∨ x ∈ rest) ∨ (pc.over = true ∧ ∀ x ∈ g.out, x ∈ f.out)))

/-- The calls from number `b` on form a tree. -/
structure CallTree (b : Nat) (anchor : ID) (s : CState) : Prop where
  root : ∃ f, s.frames[b]? = some f ∧ f.auth = anchor
  child : ∀ (i : Nat) (f : CFrame) (id : ID) (c : Nat), b ≤ i → s.frames[i]? = some f → (id, SubPC.wait c) ∈ f.subs →
    i < c ∧ ∃ g, s.frames[c]? = some g ∧ g.auth = id
  parent : ∀ (k : Nat) (g : CFrame), b < k → s.frames[k]? = some g → ∃ (i : Nat) (f : CFrame) (j : Nat) (pc : SubPC), b ≤ i ∧ i < k ∧
    s.frames[i]? = some f ∧ f.subs[j]? = some (g.auth, pc) ∧ Link k g f pc

theorem eff_auth {cap : Nat} {W : CWorld} {s : CState} {f f' : CFrame} {add : List ID} {new : List CFrame} (h : CEff cap W s f f' add new) :
    f'.auth = f.auth := by
  cases h <;> simp [CFrame.setSub]

theorem eff_out {cap : Nat} {W : CWorld} {s : CState} {f f' : CFrame} {add : List ID} {new : List CFrame} (h : CEff cap W s f f' add new) :
    ∀ x ∈ f.out, x ∈ f'.out := by
  intro x hx
  cases h <;> first | exact hx | exact (mem_receive _ _ _).mpr (.inl hx)

/-- How a worker and its call change in a step. -/
theorem eff_sub {cap : Nat} {W : CWorld} {s : CState} {f f' : CFrame} {add : List ID} {new : List CFrame} (h : CEff cap W s f f' add new)
    {j : Nat} {id : ID} {pc : SubPC} (hj : f.subs[j]? = some (id, pc)) :
    ∃ pc', f'.subs[j]? = some (id, pc') ∧
      (pc' = pc ∨ (pc.over = true ∧ pc'.over = true) ∨ (pc = .fwd [] ∧ pc' = .ended) ∨
        (∃ x rest, pc = .fwd (x :: rest) ∧ pc' = .fwd rest ∧ x ∈ f'.out) ∨
        (∃ c g, pc = .wait c ∧ s.frames[c]? = some g ∧ g.phase = .returned ∧ pc' = .fwd g.out) ∨
        pc = .fetch ∨ (∃ l, pc = .send l) ∨ ∃ l, pc = .nest l) := by
  have hlt : j < f.subs.length := (List.getElem?_eq_some_iff.mp hj).1
  have key : ∀ (f0 : CFrame) (k : Nat) (id' : ID) (p0 p1 : SubPC), f0.subs = f.subs → f.subs[k]? = some (id', p0) →
      (f0.setSub k id' p1).subs[j]? = some (id, if k = j then p1 else pc) ∧ (k = j → p0 = pc ∧ id' = id) := by
    intro f0 k id' p0 p1 h0 hk
    simp only [CFrame.setSub, h0]
    by_cases hkj : k = j
    · subst hkj
      rw [hk] at hj
      simp only [Option.some.injEq, Prod.mk.injEq] at hj
      rw [List.getElem?_set_self hlt, if_pos rfl]
      exact ⟨by rw [hj.1], fun _ => ⟨hj.2, hj.1⟩⟩
    · rw [List.getElem?_set_ne hkj, if_neg hkj]
      exact ⟨hj, fun e => absurd e hkj⟩
  cases h with
  | checkSeen h _ => exact ⟨pc, hj, .inl rfl⟩
  | checkNew h _ => exact ⟨pc, hj, .inl rfl⟩
  | add h => exact ⟨pc, hj, .inl rfl⟩
  | list l h hl => exact ⟨pc, hj, .inl rfl⟩
  | spawn id rest h _ => exact ⟨pc, by simp only; rw [List.getElem?_append_left hlt]; exact hj, .inl rfl⟩
  | spawnEnd h => exact ⟨pc, hj, .inl rfl⟩
  | authRelease h => exact ⟨pc, hj, .inl rfl⟩
  | authDone h => exact ⟨pc, hj, .inl rfl⟩
  | fetchNone k id' hk _ =>
    obtain ⟨h1, h2⟩ := key f k id' _ .ended rfl hk
    refine ⟨_, h1, ?_⟩
    split
    · rename_i e; exact .inr (.inr (.inr (.inr (.inr (.inl (h2 e).1.symm)))))
    · exact .inl rfl
  | fetchIn k id' l hk hw =>
    obtain ⟨h1, h2⟩ := key f k id' _ (.send l) rfl hk
    refine ⟨_, h1, ?_⟩
    split
    · rename_i e; exact .inr (.inr (.inr (.inr (.inr (.inl (h2 e).1.symm)))))
    · exact .inl rfl
  | fetchOut k id' l hk _ =>
    obtain ⟨h1, h2⟩ := key f k id' _ (.nest l) rfl hk
    refine ⟨_, h1, ?_⟩
    split
    · rename_i e; exact .inr (.inr (.inr (.inr (.inr (.inl (h2 e).1.symm)))))
    · exact .inl rfl
  | send k id' l hk _ =>
    obtain ⟨h1, h2⟩ := key f k id' _ (.nest l) rfl hk
    refine ⟨_, by rw [receive_subs]; exact h1, ?_⟩
    split
    · rename_i e; exact .inr (.inr (.inr (.inr (.inr (.inr (.inl ⟨l, (h2 e).1.symm⟩))))))
    · exact .inl rfl
  | nestNo k id' hk =>
    obtain ⟨h1, h2⟩ := key f k id' _ .ended rfl hk
    refine ⟨_, h1, ?_⟩
    split
    · rename_i e; exact .inr (.inr (.inr (.inr (.inr (.inr (.inr ⟨_, (h2 e).1.symm⟩))))))
    · exact .inl rfl
  | nestYes k id' hk =>
    obtain ⟨h1, h2⟩ := key f k id' _ (.wait s.frames.length) rfl hk
    refine ⟨_, h1, ?_⟩
    split
    · rename_i e; exact .inr (.inr (.inr (.inr (.inr (.inr (.inr ⟨_, (h2 e).1.symm⟩))))))
    · exact .inl rfl
  | join k id' c g hk hg hgr =>
    obtain ⟨h1, h2⟩ := key f k id' _ (.fwd g.out) rfl hk
    refine ⟨_, h1, ?_⟩
    split
    · rename_i e; exact .inr (.inr (.inr (.inr (.inl ⟨c, g, (h2 e).1.symm, hg, hgr, rfl⟩))))
    · exact .inl rfl
  | fwd k id' x rest hk _ =>
    obtain ⟨h1, h2⟩ := key f k id' _ (.fwd rest) rfl hk
    refine ⟨_, by rw [receive_subs]; exact h1, ?_⟩
    split
    · rename_i e; exact .inr (.inr (.inr (.inl ⟨x, rest, (h2 e).1.symm, rfl, (mem_receive _ _ _).mpr (.inr rfl)⟩)))
    · exact .inl rfl
  | fwdEnd k id' hk =>
    obtain ⟨h1, h2⟩ := key f k id' _ .ended rfl hk
    refine ⟨_, h1, ?_⟩
    split
    · rename_i e; exact .inr (.inr (.inl ⟨(h2 e).1.symm, rfl⟩))
    · exact .inl rfl
  | subRelease k id' hk =>
    obtain ⟨h1, h2⟩ := key f k id' _ .released rfl hk
    refine ⟨_, h1, ?_⟩
    split
    · rename_i e; exact .inr (.inl ⟨by rw [← (h2 e).1]; rfl, rfl⟩)
    · exact .inl rfl
  | subDone k id' hk =>
    obtain ⟨h1, h2⟩ := key f k id' _ .gone rfl hk
    refine ⟨_, h1, ?_⟩
    split
    · rename_i e; exact .inr (.inl ⟨by rw [← (h2 e).1]; rfl, rfl⟩)
    · exact .inl rfl
  | close h hw => exact ⟨pc, hj, .inl rfl⟩
  | ret h => exact ⟨pc, hj, .inl rfl⟩

/-- Waiting workers after a step were waiting before, or have just started a call. -/
theorem eff_wait {cap : Nat} {W : CWorld} {s : CState} {f f' : CFrame} {add : List ID} {new : List CFrame} (h : CEff cap W s f f' add new)
    {id : ID} {c : Nat} (hm : (id, SubPC.wait c) ∈ f'.subs) :
    (id, SubPC.wait c) ∈ f.subs ∨ (c = s.frames.length ∧ new = [CFrame.start (f.auth :: f.path) id]) := by
  cases h with
  | spawn id rest h _ =>
    rcases List.mem_append.mp hm with hm | hm
    · exact .inl hm
    · simp at hm
  | nestYes k id' hk =>
    rcases mem_setSub hm with hm | hm
    · exact .inl hm
    · cases hm
      exact .inr ⟨rfl, rfl⟩
  | send k id' l hk _ =>
    rw [receive_subs] at hm
    rcases mem_setSub hm with hm | hm
    · exact .inl hm
    · cases hm
  | fwd k id' l hk _ =>
    rw [receive_subs] at hm
    rcases mem_setSub hm with hm | hm
    · exact .inl hm
    · cases hm
  | fetchNone | fetchIn | fetchOut | nestNo | join | fwdEnd | subRelease | subDone =>
    rcases mem_setSub hm with hm | hm
    · exact .inl hm
    · cases hm
  | checkSeen | checkNew | add | list | spawnEnd | authRelease | authDone | close | ret => exact .inl hm

theorem Link.eff {cap : Nat} {W : CWorld} {s : CState} {f f' : CFrame} {add : List ID} {new : List CFrame} (h : CEff cap W s f f' add new)
    {j : Nat} {id : ID} {pc : SubPC} (hj : f.subs[j]? = some (id, pc)) {k : Nat} {g : CFrame} (hg : s.frames[k]? = some g)
    (hl : Link k g f pc) : ∃ pc', f'.subs[j]? = some (id, pc') ∧ Link k g f' pc' := by
  obtain ⟨pc', h1, h2⟩ := eff_sub h hj
  refine ⟨pc', h1, ?_⟩
  have ho := eff_out h
  rcases hl with rfl | ⟨hr, hl⟩
  · rcases h2 with rfl | ⟨h2, _⟩ | ⟨h2, _⟩ | ⟨_, _, h2, _⟩ | ⟨c, g', h2, hg', hr', rfl⟩ | h2 | ⟨_, h2⟩ | ⟨_, h2⟩
    · exact .inl rfl
    · cases h2
    · cases h2
    · cases h2
    · cases h2
      rw [hg] at hg'
      cases hg'
      exact .inr ⟨hr', .inl ⟨_, rfl, fun x hx => .inr hx⟩⟩
    · cases h2
    · cases h2
    · cases h2
  · refine .inr ⟨hr, ?_⟩
    rcases hl with ⟨rest, rfl, hl⟩ | ⟨hov, hl⟩
    · rcases h2 with rfl | ⟨h2, _⟩ | ⟨h2, rfl⟩ | ⟨y, r, h2, rfl, hy⟩ | ⟨_, _, h2, _⟩ | h2 | ⟨_, h2⟩ | ⟨_, h2⟩
      · exact .inl ⟨rest, rfl, fun x hx => (hl x hx).imp (ho x) (fun h => h)⟩
      · cases h2
      · cases h2
        refine .inr ⟨rfl, fun x hx => ?_⟩
        rcases hl x hx with h | h
        · exact ho x h
        · simp at h
      · cases h2
        refine .inl ⟨r, rfl, fun x hx => ?_⟩
        rcases hl x hx with h | h
        · exact .inl (ho x h)
        · rcases List.mem_cons.mp h with rfl | h
          · exact .inl hy
          · exact .inr h
      · cases h2
      · cases h2
      · cases h2
      · cases h2
    · rcases h2 with rfl | ⟨_, h2⟩ | ⟨rfl, _⟩ | ⟨_, _, rfl, _⟩ | ⟨_, _, rfl, _⟩ | rfl | ⟨_, rfl⟩ | ⟨_, rfl⟩
      · exact .inr ⟨hov, fun x hx => ho x (hl x hx)⟩
      · exact .inr ⟨h2, fun x hx => ho x (hl x hx)⟩
      all_goals cases hov

theorem run_tree {cap : Nat} (hcap : 0 < cap) {W : CWorld} {s0 : CState} (h0 : CIdle cap s0) {anchor : ID} {s : CState}
    (h : CRun cap W s0 anchor s) : CallTree s0.frames.length anchor s := by
  induction h with
  | init =>
    refine ⟨⟨CFrame.start [] anchor, by simp [CState.collect], rfl⟩, ?_, ?_⟩
    · intro i f id c hi hf hm
      obtain ⟨_, rfl⟩ := init_get hi hf
      simp [CFrame.start] at hm
    · intro k g hk hg
      obtain ⟨rfl, rfl⟩ := init_get (by omega) hg
      omega
  | @step s s' hr hs ih =>
    have hinv := runs_inv hcap (hr.runs h0)
    obtain ⟨i, f, f', add, new, hf, he, rfl⟩ := cstep_eff hs hinv.not_closed
    have hy := hr.young hcap h0 hf he
    have hilt : i < s.frames.length := (List.getElem?_eq_some_iff.mp hf).1
    refine ⟨?_, ?_, ?_⟩
    · obtain ⟨f0, hf0, ha⟩ := ih.root
      by_cases hi : s0.frames.length = i
      · rw [hi, hf] at hf0
        cases hf0
        exact ⟨f', by rw [hi]; exact after_self hf, (eff_auth he).trans ha⟩
      · exact ⟨f0, after_other hi hf0, ha⟩
    · -- children
      have keep : ∀ (c : Nat) (g : CFrame) (id : ID), s.frames[c]? = some g → g.auth = id →
          ∃ g', (s.after i f' add new).frames[c]? = some g' ∧ g'.auth = id := by
        intro c g id hg ha
        by_cases hc : c = i
        · subst hc
          rw [hf] at hg
          cases hg
          exact ⟨f', after_self hf, (eff_auth he).trans ha⟩
        · exact ⟨g, after_other hc hg, ha⟩
      intro k g id c hk hg hm
      rcases after_get hf hg with ⟨rfl, rfl⟩ | ⟨_, hg⟩ | ⟨m, _, hg⟩
      · rcases eff_wait he hm with hm | ⟨rfl, rfl⟩
        · obtain ⟨hlt, g', hg', ha⟩ := ih.child k f id c hk hf hm
          exact ⟨hlt, keep c g' id hg' ha⟩
        · exact ⟨hilt, _, after_new _, rfl⟩
      · obtain ⟨hlt, g', hg', ha⟩ := ih.child k g id c hk hg hm
        exact ⟨hlt, keep c g' id hg' ha⟩
      · rcases eff_new he with rfl | ⟨j, id', hj, _, _, rfl⟩
        · simp at hg
        · obtain ⟨_, rfl⟩ := mem_singleton_get hg
          simp [CFrame.start] at hm
    · -- parents
      have keep : ∀ (k : Nat) (g : CFrame), s.frames[k]? = some g → ∀ (i0 : Nat) (f0 : CFrame) (j : Nat) (pc : SubPC), s0.frames.length ≤ i0 → i0 < k →
          s.frames[i0]? = some f0 → f0.subs[j]? = some (g.auth, pc) → Link k g f0 pc →
          ∃ (i1 : Nat) (f1 : CFrame) (j : Nat) (pc : SubPC), s0.frames.length ≤ i1 ∧ i1 < k ∧ (s.after i f' add new).frames[i1]? = some f1 ∧
            f1.subs[j]? = some (g.auth, pc) ∧ Link k g f1 pc := by
        intro k g hg i0 f0 j pc hle hlt hf0 hj hl
        by_cases hi0 : i0 = i
        · subst hi0
          rw [hf] at hf0
          cases hf0
          obtain ⟨pc', hj', hl'⟩ := hl.eff he hj hg
          exact ⟨i0, f', j, pc', hle, hlt, after_self hf, hj', hl'⟩
        · exact ⟨i0, f0, j, pc, hle, hlt, after_other hi0 hf0, hj, hl⟩
      intro k g hk hg
      rcases after_get hf hg with ⟨rfl, rfl⟩ | ⟨_, hg⟩ | ⟨m, hkm, hg2⟩
      · obtain ⟨i0, f0, j, pc, hle, hlt, hf0, hj, hl⟩ := ih.parent k f hk hf
        rcases hl with rfl | ⟨hret, _⟩
        · have hne : i0 ≠ k := by omega
          exact ⟨i0, f0, j, _, hle, hlt, after_other hne hf0, by rw [eff_auth he]; exact hj, .inl rfl⟩
        · exact absurd hret (eff_not_returned he (hinv.2 _ _ hf))
      · obtain ⟨i0, f0, j, pc, hle, hlt, hf0, hj, hl⟩ := ih.parent k g hk hg
        exact keep k g hg i0 f0 j pc hle hlt hf0 hj hl
      · rcases eff_new he with rfl | ⟨j, id', hj, rfl, _, rfl⟩
        · simp at hg2
        · obtain ⟨rfl, rfl⟩ := mem_singleton_get hg2
          have hjlt : j < f.subs.length := (List.getElem?_eq_some_iff.mp hj).1
          refine ⟨i, _, j, .wait s.frames.length, hy, by omega, after_self hf, ?_, .inl (by simp [hkm])⟩
          simp [CFrame.setSub, CFrame.start, hjlt]


/-! ## Soundness -/

/-- May be collected: listed below the anchor and found to be included. -/
def Coll (W : CWorld) (anchor x : ID) : Prop := Member (CanList W) anchor x ∧ ∃ l, W.info x (some (true, l))

structure SoundF (W : CWorld) (anchor : ID) (f : CFrame) : Prop where
  below : Below (CanList W) anchor f.auth
  out : ∀ x ∈ f.out, Coll W anchor x
  rest : ∀ rest, f.apc = .spawn rest → ∀ x ∈ rest, CanList W f.auth x
  listed : ∀ id pc, (id, pc) ∈ f.subs → CanList W f.auth id
  send : ∀ id l, (id, SubPC.send l) ∈ f.subs → Coll W anchor id
  fwd : ∀ id r, (id, SubPC.fwd r) ∈ f.subs → ∀ x ∈ r, Coll W anchor x

theorem SoundF.move {W : CWorld} {anchor : ID} {f : CFrame} (h : SoundF W anchor f) {j : Nat} {id : ID} {pc pc' : SubPC}
    (hj : f.subs[j]? = some (id, pc)) (h1 : ∀ l, pc' = .send l → Coll W anchor id) (h2 : ∀ r, pc' = .fwd r → ∀ x ∈ r, Coll W anchor x) :
    SoundF W anchor (f.setSub j id pc') := by
  refine ⟨h.below, h.out, h.rest, ?_, ?_, ?_⟩
  · intro i p hm
    rcases mem_setSub hm with hm | hm
    · exact h.listed i p hm
    · cases hm
      exact h.listed id pc (List.mem_of_getElem? hj)
  · intro i l hm
    rcases mem_setSub hm with hm | hm
    · exact h.send i l hm
    · cases hm
      exact h1 l rfl
  · intro i r hm
    rcases mem_setSub hm with hm | hm
    · exact h.fwd i r hm
    · cases hm
      exact h2 r rfl

theorem SoundF.received {W : CWorld} {anchor : ID} {f : CFrame} (h : SoundF W anchor f) {x : ID} (hx : Coll W anchor x) :
    SoundF W anchor (f.receive x) := by
  refine ⟨by simpa using h.below, ?_, by simpa using h.rest, by simpa using h.listed, by simpa using h.send, by simpa using h.fwd⟩
  intro y hy
  rcases (mem_receive f x y).mp hy with hy | rfl
  · exact h.out y hy
  · exact hx

theorem SoundF.apc {W : CWorld} {anchor : ID} {f f' : CFrame} (h : SoundF W anchor f) (h1 : f'.auth = f.auth) (h2 : f'.out = f.out)
    (h3 : f'.subs = f.subs) (h4 : ∀ rest, f'.apc = .spawn rest → ∀ x ∈ rest, CanList W f.auth x) : SoundF W anchor f' := by
  refine ⟨h1 ▸ h.below, h2 ▸ h.out, h1 ▸ h4, ?_, ?_, ?_⟩
  · rw [h3, h1]; exact h.listed
  · rw [h3]; exact h.send
  · rw [h3]; exact h.fwd

theorem start_sound {W : CWorld} {anchor x : ID} (path : List ID) (h : Below (CanList W) anchor x) : SoundF W anchor (CFrame.start path x) :=
  ⟨h, by simp [CFrame.start], (by intro r hr; cases hr), by simp [CFrame.start], by simp [CFrame.start], by simp [CFrame.start]⟩

theorem eff_sound {cap : Nat} {W : CWorld} {anchor : ID} {s : CState} {f f' : CFrame} {add : List ID} {new : List CFrame}
    (h : CEff cap W s f f' add new) (hi : SoundF W anchor f) (hs : ∀ (j : Nat) (id : ID) (c : Nat) (g : CFrame),
      f.subs[j]? = some (id, .wait c) → s.frames[c]? = some g → SoundF W anchor g) : SoundF W anchor f' := by
  cases h with
  | checkSeen h _ => exact hi.apc rfl rfl rfl (by intro r hr; cases hr)
  | checkNew h _ => exact hi.apc rfl rfl rfl (by intro r hr; cases hr)
  | add h => exact hi.apc rfl rfl rfl (by intro r hr; cases hr)
  | list l h hl => exact hi.apc rfl rfl rfl (by intro r hr x hx; cases hr; exact ⟨l, hl, hx⟩)
  | spawn id rest h _ =>
    have hr := hi.rest _ h
    refine ⟨hi.below, hi.out, ?_, ?_, ?_, ?_⟩
    · intro r hr' x hx
      cases hr'
      exact hr x (List.mem_cons_of_mem _ hx)
    · intro i p hm
      rcases List.mem_append.mp hm with hm | hm
      · exact hi.listed i p hm
      · simp only [List.mem_singleton, Prod.mk.injEq] at hm
        exact hm.1 ▸ hr id List.mem_cons_self
    · intro i l hm
      rcases List.mem_append.mp hm with hm | hm
      · exact hi.send i l hm
      · simp at hm
    · intro i r hm
      rcases List.mem_append.mp hm with hm | hm
      · exact hi.fwd i r hm
      · simp at hm
  | spawnEnd h => exact hi.apc rfl rfl rfl (by intro r hr; cases hr)
  | authRelease h => exact hi.apc rfl rfl rfl (by intro r hr; cases hr)
  | authDone h => exact hi.apc rfl rfl rfl (by intro r hr; cases hr)
  | fetchNone j id hj _ => exact hi.move hj (by intro l hl; cases hl) (by intro r hr; cases hr)
  | fetchIn j id l hj hw =>
    exact hi.move hj (fun _ _ => ⟨⟨f.auth, hi.below, hi.listed id _ (List.mem_of_getElem? hj)⟩, l, hw⟩) (by intro r hr; cases hr)
  | fetchOut j id l hj _ => exact hi.move hj (by intro l hl; cases hl) (by intro r hr; cases hr)
  | send j id l hj _ =>
    exact (hi.move hj (by intro l hl; cases hl) (by intro r hr; cases hr)).received (hi.send id l (List.mem_of_getElem? hj))
  | nestNo j id hj => exact hi.move hj (by intro l hl; cases hl) (by intro r hr; cases hr)
  | nestYes j id hj => exact hi.move hj (by intro l hl; cases hl) (by intro r hr; cases hr)
  | join j id c g hj hg _ => exact hi.move hj (by intro l hl; cases hl) (by intro r hr x hx; cases hr; exact (hs j id c g hj hg).out x hx)
  | fwd j id x rest hj _ =>
    have := hi.fwd id _ (List.mem_of_getElem? hj)
    exact (hi.move hj (by intro l hl; cases hl) (by intro r hr y hy; cases hr; exact this y (List.mem_cons_of_mem _ hy))).received
      (this x List.mem_cons_self)
  | fwdEnd j id hj => exact hi.move hj (by intro l hl; cases hl) (by intro r hr; cases hr)
  | subRelease j id hj =>
    exact (hi.move hj (pc' := .released) (by intro l hl; cases hl) (by intro r hr; cases hr)).apc rfl rfl rfl hi.rest
  | subDone j id hj =>
    exact (hi.move hj (pc' := .gone) (by intro l hl; cases hl) (by intro r hr; cases hr)).apc rfl rfl rfl hi.rest
  | close h hw => exact hi.apc rfl rfl rfl hi.rest
  | ret h => exact hi.apc rfl rfl rfl hi.rest

theorem run_sound {cap : Nat} (hcap : 0 < cap) {W : CWorld} {s0 : CState} (h0 : CIdle cap s0) {anchor : ID} {s : CState}
    (h : CRun cap W s0 anchor s) : ∀ (i : Nat) (f : CFrame), s0.frames.length ≤ i → s.frames[i]? = some f → SoundF W anchor f := by
  induction h with
  | init =>
    intro i f hi hf
    obtain ⟨_, rfl⟩ := init_get hi hf
    exact start_sound [] .anchor
  | step hr hs ih =>
    obtain ⟨i, f, f', add, new, hf, he, rfl⟩ := cstep_eff hs (runs_inv hcap (hr.runs h0)).not_closed
    have hy := hr.young hcap h0 hf he
    intro k g hk hg
    rcases after_get hf hg with ⟨_, rfl⟩ | ⟨_, hg⟩ | ⟨m, _, hg⟩
    · refine eff_sound he (ih i f hy hf) ?_
      intro j id c g' hj hg'
      exact ih c g' (by have := ((run_tree hcap h0 hr).child i f id c hy hf (List.mem_of_getElem? hj)).1; omega) hg'
    · exact ih k g hk hg
    · rcases eff_new he with rfl | ⟨j, id, hj, _, _, rfl⟩
      · simp at hg
      · obtain ⟨_, rfl⟩ := mem_singleton_get hg
        exact start_sound _ (.sub (ih i f hy hf).below ((ih i f hy hf).listed id _ (List.mem_of_getElem? hj)))

/-! ## Completeness -/

/-- Answers do not change. -/
structure Stable (W : CWorld) (L : ID → List ID) (I : ID → Option (Bool × Bool)) : Prop where
  lists : ∀ a l, W.lists a l → l = L a
  info : ∀ id x, W.info id x → x = I id

/-- The worker has not yet come back from a nested call. -/
def SubPC.early : SubPC → Bool
  | .fetch | .send _ | .nest _ | .wait _ => true
  | _ => false

structure SubC (I : ID → Option (Bool × Bool)) (V out : List ID) (id : ID) (pc : SubPC) : Prop where
  send : ∀ l, pc = .send l → I id = some (true, l)
  nest : ∀ l, pc = .nest l → ∃ b, I id = some (b, l)
  sent : pc = .fetch ∨ (∃ l, pc = .send l) ∨ ∀ l, I id = some (true, l) → id ∈ out
  nested : pc.early = true ∨ ∀ b, I id = some (b, true) → id ∈ V

structure FComp (L : ID → List ID) (I : ID → Option (Bool × Bool)) (V : List ID) (f : CFrame) : Prop where
  seen : f.apc = .check ∨ f.apc = .add ∨ f.auth ∈ V
  empty : f.apc = .check ∨ f.apc = .add ∨ f.apc = .list → f.subs = []
  lst : ∀ l, f.listing = some l → l = L f.auth ∧ ∃ rest, f.subs.map (fun x => x.1) ++ rest = l ∧
    (f.apc = .spawn rest ∨ (f.apc.over = true ∧ rest = []))
  sub : ∀ id pc, (id, pc) ∈ f.subs → SubC I V f.out id pc

theorem SubC.mono {I : ID → Option (Bool × Bool)} {V V' out out' : List ID} {id : ID} {pc : SubPC} (h : SubC I V out id pc)
    (hV : ∀ x ∈ V, x ∈ V') (ho : ∀ x ∈ out, x ∈ out') : SubC I V' out' id pc :=
  ⟨h.send, h.nest, h.sent.imp (fun h => h) (fun h => h.imp (fun h => h) (fun h l hl => ho _ (h l hl))),
    h.nested.imp (fun h => h) (fun h b hb => hV _ (h b hb))⟩

theorem FComp.mono {L : ID → List ID} {I : ID → Option (Bool × Bool)} {V V' : List ID} {f : CFrame} (h : FComp L I V f)
    (hV : ∀ x ∈ V, x ∈ V') : FComp L I V' f :=
  ⟨h.seen.imp (fun h => h) (fun h => h.imp (fun h => h) (hV _)), h.empty, h.lst, fun id pc hm => (h.sub id pc hm).mono hV (fun _ h => h)⟩

theorem setSub_ids {f : CFrame} {j : Nat} {id : ID} {pc : SubPC} (hj : f.subs[j]? = some (id, pc)) (pc' : SubPC) :
    (f.setSub j id pc').subs.map (fun x => x.1) = f.subs.map (fun x => x.1) := by
  simp only [CFrame.setSub, List.map_set]
  apply List.ext_getElem?
  intro k
  rw [List.getElem?_set]
  split
  · rename_i e
    subst e
    simp only [List.length_map, List.getElem?_map, hj]
    split
    · rfl
    · rename_i hlt
      exact absurd (List.getElem?_eq_some_iff.mp hj).1 hlt
  · rfl

theorem FComp.move {L : ID → List ID} {I : ID → Option (Bool × Bool)} {V : List ID} {f : CFrame} (h : FComp L I V f) {j : Nat} {id : ID}
    {pc pc' : SubPC} (hj : f.subs[j]? = some (id, pc)) (hc : SubC I V f.out id pc') : FComp L I V (f.setSub j id pc') := by
  refine ⟨h.seen, ?_, ?_, ?_⟩
  · intro ha
    have := h.empty ha
    rw [this] at hj
    simp at hj
  · intro l hl
    rw [setSub_ids hj]
    exact h.lst l hl
  · intro i p hm
    rcases mem_setSub hm with hm | hm
    · exact h.sub i p hm
    · cases hm
      exact hc

theorem FComp.received {L : ID → List ID} {I : ID → Option (Bool × Bool)} {V : List ID} {f : CFrame} (x : ID)
    (h1 : f.apc = .check ∨ f.apc = .add ∨ f.auth ∈ V)
    (h2 : f.apc = .check ∨ f.apc = .add ∨ f.apc = .list → f.subs = [])
    (h3 : ∀ l, f.listing = some l → l = L f.auth ∧ ∃ rest, f.subs.map (fun x => x.1) ++ rest = l ∧
      (f.apc = .spawn rest ∨ (f.apc.over = true ∧ rest = [])))
    (h4 : ∀ id pc, (id, pc) ∈ f.subs → SubC I V (f.receive x).out id pc) : FComp L I V (f.receive x) :=
  ⟨by simpa using h1, by simpa using h2, by simpa using h3, by simpa using h4⟩

/-- Only the authority's goroutine or the phase moves. -/
theorem FComp.apc {L : ID → List ID} {I : ID → Option (Bool × Bool)} {V : List ID} {f f' : CFrame} (h : FComp L I V f)
    (_ : f'.auth = f.auth) (h2 : f'.out = f.out) (h3 : f'.subs = f.subs) (h4 : f'.apc = .check ∨ f'.apc = .add ∨ f'.auth ∈ V)
    (h5 : f'.apc = .check ∨ f'.apc = .add ∨ f'.apc = .list → f.subs = [])
    (h6 : ∀ l, f'.listing = some l → l = L f'.auth ∧ ∃ rest, f'.subs.map (fun x => x.1) ++ rest = l ∧
      (f'.apc = .spawn rest ∨ (f'.apc.over = true ∧ rest = []))) : FComp L I V f' :=
  ⟨h4, by rw [h3]; exact h5, h6, by rw [h3, h2]; exact h.sub⟩

theorem start_comp (L : ID → List ID) (I : ID → Option (Bool × Bool)) (V path : List ID) (x : ID) : FComp L I V (CFrame.start path x) :=
  ⟨.inl rfl, fun _ => rfl, by simp [CFrame.start], by simp [CFrame.start]⟩

theorem eff_comp {cap : Nat} {W : CWorld} {L : ID → List ID} {I : ID → Option (Bool × Bool)} (hst : Stable W L I) {b : Nat} {anchor : ID} {s : CState}
    (htree : CallTree b anchor s) (hinv : AllInv cap s) {i : Nat} {f f' : CFrame} {add : List ID} {new : List CFrame}
    (h : CEff cap W s f f' add new) (hb : b ≤ i) (hf : s.frames[i]? = some f)
    (hs : ∀ (i : Nat) (f : CFrame), b ≤ i → s.frames[i]? = some f → FComp L I s.visited f) : FComp L I (add ++ s.visited) f' := by
  have hi := hs i f hb hf
  have over : ∀ (p : AuthPC), p.over = true → ∀ l, f.listing = some l → f.apc.over = true → l = L f.auth ∧
      ∃ rest, f.subs.map (fun x => x.1) ++ rest = l ∧ (p = .spawn rest ∨ (p.over = true ∧ rest = [])) := by
    intro p hp l hl ho
    obtain ⟨h1, rest, h2, h3⟩ := hi.lst l hl
    refine ⟨h1, rest, h2, .inr ⟨hp, ?_⟩⟩
    rcases h3 with h3 | ⟨_, h3⟩
    · rw [h3] at ho; cases ho
    · exact h3
  have none : f.apc = .check ∨ f.apc = .add ∨ f.apc = .list → f.listing = none := by
    intro hapc
    cases hl : f.listing with
    | none => rfl
    | some l =>
      obtain ⟨_, rest, _, h3⟩ := hi.lst l hl
      rcases hapc with e | e | e <;> rw [e] at h3 <;> rcases h3 with h3 | ⟨h3, _⟩ <;> cases h3
  cases h with
  | checkSeen h hv =>
    refine hi.apc rfl rfl rfl (.inr (.inr hv)) (by rintro (h | h | h) <;> cases h) ?_
    intro l hl
    have := none (.inl h)
    rw [show f.listing = some l from hl] at this
    cases this
  | checkNew h hv =>
    refine hi.apc rfl rfl rfl (.inr (.inl rfl)) (fun _ => hi.empty (.inl h)) ?_
    intro l hl
    have := none (.inl h)
    rw [show f.listing = some l from hl] at this
    cases this
  | add h =>
    refine (hi.mono (V' := [f.auth] ++ s.visited) (fun x hx => List.mem_cons_of_mem _ hx)).apc rfl rfl rfl (.inr (.inr List.mem_cons_self))
      (fun _ => hi.empty (.inr (.inl h))) ?_
    intro l hl
    have := none (.inr (.inl h))
    rw [show f.listing = some l from hl] at this
    cases this
  | list l h hl =>
    refine hi.apc rfl rfl rfl ?_ (by rintro (h | h | h) <;> cases h) ?_
    · rcases hi.seen with h' | h' | h'
      · rw [h] at h'; cases h'
      · rw [h] at h'; cases h'
      · exact .inr (.inr h')
    · intro l' hl'
      simp only [Option.some.injEq] at hl'
      subst hl'
      refine ⟨hst.lists _ _ hl, l, ?_, .inl rfl⟩
      simp only [hi.empty (.inr (.inr h)), List.map_nil, List.nil_append]
  | spawn id rest h _ =>
    refine ⟨?_, (by rintro (h | h | h) <;> cases h), ?_, ?_⟩
    · rcases hi.seen with h' | h' | h'
      · rw [h] at h'; cases h'
      · rw [h] at h'; cases h'
      · exact .inr (.inr h')
    · intro l hl
      obtain ⟨h1, r, h2, h3⟩ := hi.lst l hl
      rcases h3 with h3 | ⟨h3, _⟩
      · rw [h] at h3
        cases h3
        exact ⟨h1, rest, by rw [← h2]; simp, .inl rfl⟩
      · rw [h] at h3; cases h3
    · intro i' p hm
      rcases List.mem_append.mp hm with hm | hm
      · exact hi.sub i' p hm
      · simp only [List.mem_singleton, Prod.mk.injEq] at hm
        obtain ⟨_, rfl⟩ := hm
        exact ⟨(by intro l hl; cases hl), (by intro l hl; cases hl), .inl rfl, .inl rfl⟩
  | spawnEnd h =>
    refine hi.apc rfl rfl rfl ?_ (by rintro (h | h | h) <;> cases h) ?_
    · rcases hi.seen with h' | h' | h'
      · rw [h] at h'; cases h'
      · rw [h] at h'; cases h'
      · exact .inr (.inr h')
    · intro l hl
      obtain ⟨h1, r, h2, h3⟩ := hi.lst l hl
      rcases h3 with h3 | ⟨h3, _⟩
      · rw [h] at h3
        cases h3
        exact ⟨h1, [], h2, .inr ⟨rfl, rfl⟩⟩
      · rw [h] at h3; cases h3
  | authRelease h =>
    refine hi.apc rfl rfl rfl ?_ (by rintro (h | h | h) <;> cases h) (fun l hl => over .released rfl l hl (by rw [h]; rfl))
    rcases hi.seen with h' | h' | h'
    · rw [h] at h'; cases h'
    · rw [h] at h'; cases h'
    · exact .inr (.inr h')
  | authDone h =>
    refine hi.apc rfl rfl rfl ?_ (by rintro (h | h | h) <;> cases h) (fun l hl => over .gone rfl l hl (by rw [h]; rfl))
    rcases hi.seen with h' | h' | h'
    · rw [h] at h'; cases h'
    · rw [h] at h'; cases h'
    · exact .inr (.inr h')
  | fetchNone j id hj hw =>
    have hn := hst.info _ _ hw
    refine hi.move hj ⟨(by intro l hl; cases hl), (by intro l hl; cases hl), .inr (.inr ?_), .inr ?_⟩
    · intro l hl; rw [← hn] at hl; cases hl
    · intro l hl; rw [← hn] at hl; cases hl
  | fetchIn j id l hj hw =>
    have hn := hst.info _ _ hw
    exact hi.move hj ⟨(by intro l hl; cases hl; exact hn.symm), (by intro l hl; cases hl), .inr (.inl ⟨l, rfl⟩), .inl rfl⟩
  | fetchOut j id l hj hw =>
    have hn := hst.info _ _ hw
    refine hi.move hj ⟨(by intro l hl; cases hl), (by intro l hl; cases hl; exact ⟨_, hn.symm⟩), .inr (.inr ?_), .inl rfl⟩
    intro l hl; rw [← hn] at hl; cases hl
  | send j id l hj _ =>
    have hsub := hi.sub id _ (List.mem_of_getElem? hj)
    have hn := hsub.send l rfl
    have hx : id ∈ ((f.setSub j id (.nest l)).receive id).out := (mem_receive _ _ _).mpr (.inr rfl)
    refine FComp.received id hi.seen ?_ ?_ ?_
    · intro ha
      have := hi.empty ha
      rw [this] at hj
      simp at hj
    · intro l' hl'
      rw [setSub_ids hj]
      exact hi.lst l' hl'
    · intro i p hm
      rcases mem_setSub hm with hm | hm
      · exact (hi.sub i p hm).mono (fun _ h => h) (fun x hx => (mem_receive _ _ _).mpr (.inl hx))
      · cases hm
        exact ⟨(by intro l hl; cases hl), (by intro l hl; cases hl; exact ⟨_, hn⟩), .inr (.inr fun _ _ => hx), .inl rfl⟩
  | nestNo j id hj =>
    have hsub := hi.sub id _ (List.mem_of_getElem? hj)
    obtain ⟨b, hn⟩ := hsub.nest _ rfl
    refine hi.move hj ⟨(by intro l hl; cases hl), (by intro l hl; cases hl), .inr (.inr ?_), .inr ?_⟩
    · rcases hsub.sent with h | ⟨_, h⟩ | h
      · cases h
      · cases h
      · exact h
    · intro b' hb'; rw [hn] at hb'; cases hb'
  | nestYes j id hj =>
    have hsub := hi.sub id _ (List.mem_of_getElem? hj)
    refine hi.move hj ⟨(by intro l hl; cases hl), (by intro l hl; cases hl), .inr (.inr ?_), .inl rfl⟩
    rcases hsub.sent with h | ⟨_, h⟩ | h
    · cases h
    · cases h
    · exact h
  | join j id c g hj hg hret =>
    have hm := List.mem_of_getElem? hj
    have hsub := hi.sub id _ hm
    refine hi.move hj ⟨(by intro l hl; cases hl), (by intro l hl; cases hl), .inr (.inr ?_), .inr ?_⟩
    · rcases hsub.sent with h | ⟨_, h⟩ | h
      · cases h
      · cases h
      · exact h
    · intro b _
      obtain ⟨hlt, g', hg', ha⟩ := htree.child i f id c hb hf hm
      rw [hg] at hg'
      cases hg'
      have hgone : g.apc.alive ≠ true := by
        intro hal
        have := (hinv.2 c g hg).running_auth hal
        rw [hret] at this
        cases this
      rcases (hs c g (by omega) hg).seen with h | h | h
      · rw [h] at hgone; exact absurd rfl hgone
      · rw [h] at hgone; exact absurd rfl hgone
      · exact ha ▸ h
  | fwd j id x rest hj _ =>
    have hsub := hi.sub id _ (List.mem_of_getElem? hj)
    refine FComp.received x hi.seen ?_ ?_ ?_
    · intro ha
      have := hi.empty ha
      rw [this] at hj
      simp at hj
    · intro l' hl'
      rw [setSub_ids hj]
      exact hi.lst l' hl'
    · intro i p hm
      have mono : ∀ y ∈ f.out, y ∈ ((f.setSub j id (.fwd rest)).receive x).out := fun y hy => (mem_receive _ _ _).mpr (.inl hy)
      rcases mem_setSub hm with hm | hm
      · exact (hi.sub i p hm).mono (fun _ h => h) mono
      · cases hm
        refine ⟨(by intro l hl; cases hl), (by intro l hl; cases hl), .inr (.inr ?_), .inr ?_⟩
        · rcases hsub.sent with h | ⟨_, h⟩ | h
          · cases h
          · cases h
          · exact fun l hl => mono _ (h l hl)
        · rcases hsub.nested with h | h
          · cases h
          · exact h
  | fwdEnd j id hj =>
    have hsub := hi.sub id _ (List.mem_of_getElem? hj)
    refine hi.move hj ⟨(by intro l hl; cases hl), (by intro l hl; cases hl), .inr (.inr ?_), .inr ?_⟩
    · rcases hsub.sent with h | ⟨_, h⟩ | h
      · cases h
      · cases h
      · exact h
    · rcases hsub.nested with h | h
      · cases h
      · exact h
  | subRelease j id hj =>
    have hsub := hi.sub id _ (List.mem_of_getElem? hj)
    have hm : FComp L I s.visited (f.setSub j id .released) := by
      refine hi.move hj ⟨(by intro l hl; cases hl), (by intro l hl; cases hl), .inr (.inr ?_), .inr ?_⟩
      · rcases hsub.sent with h | ⟨_, h⟩ | h
        · cases h
        · cases h
        · exact h
      · rcases hsub.nested with h | h
        · cases h
        · exact h
    exact hm.apc rfl rfl rfl hm.seen hm.empty hm.lst
  | subDone j id hj =>
    have hsub := hi.sub id _ (List.mem_of_getElem? hj)
    have hm : FComp L I s.visited (f.setSub j id .gone) := by
      refine hi.move hj ⟨(by intro l hl; cases hl), (by intro l hl; cases hl), .inr (.inr ?_), .inr ?_⟩
      · rcases hsub.sent with h | ⟨_, h⟩ | h
        · cases h
        · cases h
        · exact h
      · rcases hsub.nested with h | h
        · cases h
        · exact h
    exact hm.apc rfl rfl rfl hm.seen hm.empty hm.lst
  | close h hw => exact hi.apc rfl rfl rfl hi.seen hi.empty hi.lst
  | ret h => exact hi.apc rfl rfl rfl hi.seen hi.empty hi.lst

/-- Every visited entity is or was processed by some call. -/
def Owned (b : Nat) (s : CState) : Prop :=
  ∀ a ∈ s.visited, ∃ (k : Nat) (g : CFrame), b ≤ k ∧ s.frames[k]? = some g ∧ g.auth = a ∧ (g.apc = .list ∨ g.listing.isSome)

theorem eff_owner {cap : Nat} {W : CWorld} {s : CState} {f f' : CFrame} {add : List ID} {new : List CFrame} (h : CEff cap W s f f' add new)
    (ho : f.apc = .list ∨ f.listing.isSome) : f'.apc = .list ∨ f'.listing.isSome := by
  rcases ho with ho | ho
  · cases h with
    | checkSeen h _ => rw [h] at ho; cases ho
    | checkNew h _ => rw [h] at ho; cases ho
    | add h => rw [h] at ho; cases ho
    | list l h hl => exact .inr rfl
    | spawn id rest h _ => rw [h] at ho; cases ho
    | spawnEnd h => rw [h] at ho; cases ho
    | authRelease h => rw [h] at ho; cases ho
    | authDone h => rw [h] at ho; cases ho
    | send | fwd => exact .inl (by rw [receive_apc]; exact ho)
    | _ => exact .inl ho
  · cases h with
    | list l h hl => exact .inr rfl
    | send | fwd => exact .inr (by rw [receive_listing]; exact ho)
    | _ => exact .inr ho

theorem eff_add {cap : Nat} {W : CWorld} {s : CState} {f f' : CFrame} {add : List ID} {new : List CFrame} (h : CEff cap W s f f' add new) :
    add = [] ∨ (add = [f.auth] ∧ f'.apc = .list) := by
  cases h <;> first | exact .inl rfl | exact .inr ⟨rfl, rfl⟩

theorem run_comp {cap : Nat} (hcap : 0 < cap) {W : CWorld} {L : ID → List ID} {I : ID → Option (Bool × Bool)} (hst : Stable W L I)
    {s0 : CState} (h0 : CIdle cap s0) {anchor : ID} {s : CState} (h : CRun cap W s0 anchor s) :
    Owned s0.frames.length s ∧ ∀ (i : Nat) (f : CFrame), s0.frames.length ≤ i → s.frames[i]? = some f → FComp L I s.visited f := by
  induction h with
  | init =>
    refine ⟨by intro a ha; simp [CState.collect] at ha, ?_⟩
    intro i f hi hf
    obtain ⟨_, rfl⟩ := init_get hi hf
    exact start_comp _ _ _ _ _
  | @step s s' hr hs ih =>
    have hinv := runs_inv hcap (hr.runs h0)
    have htree := run_tree hcap h0 hr
    obtain ⟨i, f, f', add, new, hf, he, rfl⟩ := cstep_eff hs hinv.not_closed
    have hy := hr.young hcap h0 hf he
    constructor
    · intro a ha
      rcases List.mem_append.mp ha with ha | ha
      · rcases eff_add he with rfl | ⟨rfl, hl⟩
        · simp at ha
        · simp only [List.mem_singleton] at ha
          subst ha
          exact ⟨i, f', hy, after_self hf, eff_auth he, .inl hl⟩
      · obtain ⟨k, g, hk0, hg, hga, hgo⟩ := ih.1 a ha
        by_cases hk : k = i
        · subst hk
          rw [hf] at hg
          cases hg
          exact ⟨k, f', hk0, after_self hf, (eff_auth he).trans hga, eff_owner he hgo⟩
        · exact ⟨k, g, hk0, after_other hk hg, hga, hgo⟩
    · intro k g hk hg
      rcases after_get hf hg with ⟨_, rfl⟩ | ⟨_, hg⟩ | ⟨m, _, hg2⟩
      · exact eff_comp hst htree hinv he hy hf ih.2
      · exact (ih.2 k g hk hg).mono (fun x hx => List.mem_append_right _ hx)
      · rcases eff_new he with rfl | ⟨j, id, hj, _, _, rfl⟩
        · simp at hg2
        · obtain ⟨_, rfl⟩ := mem_singleton_get hg2
          exact start_comp _ _ _ _ _

theorem returned_gone {cap : Nat} {f : CFrame} (hi : FInv cap f) (hr : f.phase = .returned) :
    f.apc = .gone ∧ ∀ id pc, (id, pc) ∈ f.subs → pc = .gone := by
  have key : f.phase ≠ .running := by rw [hr]; decide
  constructor
  · cases hapc : f.apc with
    | gone => rfl
    | _ => exact absurd (hi.running_auth (by rw [hapc]; rfl)) key
  · intro id pc hm
    obtain ⟨j, hj⟩ := List.mem_iff_getElem?.mp hm
    cases pc with
    | gone => rfl
    | _ => exact absurd (hi.running hj rfl) key

/-- When the root call has returned, all calls have, and the root has everything they collected. -/
theorem all_returned {cap : Nat} {b : Nat} {anchor : ID} {s : CState} (hinv : AllInv cap s) (ht : CallTree b anchor s) {r : CFrame}
    (h0 : s.frames[b]? = some r) (hr : r.phase = .returned) :
    ∀ (k : Nat) (g : CFrame), b ≤ k → s.frames[k]? = some g → g.phase = .returned ∧ ∀ x ∈ g.out, x ∈ r.out := by
  intro k
  induction k using Nat.strong_induction_on with
  | _ k ih =>
    intro g hb hg
    by_cases hk : k = b
    · subst hk
      rw [h0] at hg
      cases hg
      exact ⟨hr, fun _ h => h⟩
    · obtain ⟨i, f, j, pc, hbi, hlt, hf, hj, hl⟩ := ht.parent k g (by omega) hg
      obtain ⟨hfr, hfo⟩ := ih i hlt f hbi hf
      have hgone := (returned_gone (hinv.2 i f hf) hfr).2 _ _ (List.mem_of_getElem? hj)
      subst hgone
      rcases hl with h | ⟨h1, ⟨_, h, _⟩ | ⟨_, h⟩⟩
      · cases h
      · cases h
      · exact ⟨h1, fun x hx => hfo x (h x hx)⟩

theorem run_complete {cap : Nat} (hcap : 0 < cap) {W : CWorld} {L : ID → List ID} {I : ID → Option (Bool × Bool)} (hst : Stable W L I)
    (hI : ∀ x, L x ≠ [] → ∃ b, I x = some (b, true)) {s0 : CState} (hidle : CIdle cap s0)
    {anchor : ID} {s : CState} (h : CRun cap W s0 anchor s) {r : CFrame} (h0 : s.frames[s0.frames.length]? = some r) (hr : r.phase = .returned)
    (x : ID) (hx : Member (fun a x => x ∈ L a) anchor x) (hin : ∃ l, I x = some (true, l)) : x ∈ r.out := by
  have hinv := runs_inv hcap (h.runs hidle)
  have htree := run_tree hcap hidle h
  obtain ⟨hown, hcomp⟩ := run_comp hcap hst hidle h
  have hret := all_returned hinv htree h0 hr
  -- every visited authority was processed completely
  have hproc : ∀ a ∈ s.visited, ∃ (k : Nat) (g : CFrame), s0.frames.length ≤ k ∧ s.frames[k]? = some g ∧
      ∀ y ∈ L a, (y, SubPC.gone) ∈ g.subs := by
    intro a ha
    obtain ⟨k, g, hk, hg, hga, hgo⟩ := hown a ha
    obtain ⟨hgone, hsubs⟩ := returned_gone (hinv.2 k g hg) (hret k g hk hg).1
    rcases hgo with h | h
    · rw [hgone] at h; cases h
    · obtain ⟨l, hl⟩ := Option.isSome_iff_exists.mp h
      obtain ⟨h1, rest, h2, h3⟩ := (hcomp k g hk hg).lst l hl
      have hrest : rest = [] := by
        rcases h3 with h3 | ⟨_, h3⟩
        · rw [hgone] at h3; cases h3
        · exact h3
      refine ⟨k, g, hk, hg, ?_⟩
      intro y hy
      rw [← hga, ← h1, ← h2, hrest, List.append_nil] at hy
      obtain ⟨⟨y', pc⟩, hm, rfl⟩ := List.mem_map.mp hy
      have := hsubs _ _ hm
      exact this ▸ hm
  have hvis : ∀ a, Below (fun a x => x ∈ L a) anchor a → L a = [] ∨ a ∈ s.visited := by
    intro a ha
    induction ha with
    | anchor =>
      right
      obtain ⟨f, hf, ha⟩ := htree.root
      obtain ⟨hgone, _⟩ := returned_gone (hinv.2 _ f hf) (hret _ f (le_refl _) hf).1
      rcases (hcomp _ f (le_refl _) hf).seen with h | h | h
      · rw [hgone] at h; cases h
      · rw [hgone] at h; cases h
      · exact ha ▸ h
    | @sub a y _ hy ih =>
      by_cases hLy : L y = []
      · exact .inl hLy
      · right
        rcases ih with h | h
        · rw [h] at hy; simp at hy
        · obtain ⟨k, g, hk, hg, hsubs⟩ := hproc a h
          have hc := (hcomp k g hk hg).sub y _ (hsubs y hy)
          obtain ⟨b, hb⟩ := hI y hLy
          rcases hc.nested with h | h
          · cases h
          · exact h b hb
  obtain ⟨a, ha, hax⟩ := hx
  rcases hvis a ha with h | h
  · rw [h] at hax; simp at hax
  · obtain ⟨k, g, hk, hg, hsubs⟩ := hproc a h
    have hc := (hcomp k g hk hg).sub x _ (hsubs x hax)
    obtain ⟨l, hl⟩ := hin
    rcases hc.sent with h | ⟨_, h⟩ | h
    · cases h
    · cases h
    · exact (hret k g hk hg).2 x (h l hl)

/-! ## Progress -/

theorem last_unreturned (l : List CFrame) (h : ∃ f ∈ l, f.phase ≠ .returned) :
    ∃ (k : Nat) (g : CFrame), l[k]? = some g ∧ g.phase ≠ .returned ∧ ∀ (k' : Nat) (g' : CFrame), k < k' → l[k']? = some g' → g'.phase = .returned := by
  induction l with
  | nil => obtain ⟨f, hf, _⟩ := h; simp at hf
  | cons a l ih =>
    by_cases hl : ∃ f ∈ l, f.phase ≠ .returned
    · obtain ⟨k, g, h1, h2, h3⟩ := ih hl
      refine ⟨k + 1, g, by simpa using h1, h2, ?_⟩
      intro k' g' hk hg'
      cases k' with
      | zero => omega
      | succ k' => exact h3 k' g' (by omega) (by simpa using hg')
    · obtain ⟨f, hf, hp⟩ := h
      rcases List.mem_cons.mp hf with rfl | hf
      · refine ⟨0, f, rfl, hp, ?_⟩
        intro k' g' hk hg'
        cases k' with
        | zero => omega
        | succ k' =>
          by_contra hne
          exact hl ⟨g', List.mem_of_getElem? (by simpa using hg'), hne⟩
      · exact absurd ⟨f, hf, hp⟩ hl

/-- Workers wait for calls that were started later. -/
theorem runs_child {cap : Nat} (hcap : 0 < cap) {W : CWorld} {s : CState} (h : CRuns cap W s) (i : Nat) (f : CFrame) (id : ID) (c : Nat)
    (hf : s.frames[i]? = some f) (hm : (id, SubPC.wait c) ∈ f.subs) : i < c ∧ ∃ g, s.frames[c]? = some g := by
  induction h generalizing i f id c with
  | new => simp [CState.new] at hf
  | @call s anchor hr ih =>
    by_cases hi : i < s.frames.length
    · simp only [CState.collect] at hf
      rw [List.getElem?_append_left hi] at hf
      obtain ⟨h1, g, hg⟩ := ih i f id c hf hm
      refine ⟨h1, g, ?_⟩
      simp only [CState.collect]
      rw [List.getElem?_append_left (List.getElem?_eq_some_iff.mp hg).1, hg]
    · obtain ⟨_, rfl⟩ := init_get (by omega) hf
      simp [CFrame.start] at hm
  | @step s s' hr hs ih =>
    obtain ⟨k, f0, f', add, new, hf0, he, rfl⟩ := cstep_eff hs (runs_inv hcap hr).not_closed
    have hklt : k < s.frames.length := (List.getElem?_eq_some_iff.mp hf0).1
    have keep : ∀ (c : Nat) (g : CFrame), s.frames[c]? = some g → ∃ g', (s.after k f' add new).frames[c]? = some g' := by
      intro c g hg
      by_cases hc : c = k
      · subst hc
        exact ⟨f', after_self hf0⟩
      · exact ⟨g, after_other hc hg⟩
    rcases after_get hf0 hf with ⟨rfl, rfl⟩ | ⟨_, hf⟩ | ⟨m, _, hf2⟩
    · rcases eff_wait he hm with hm | ⟨rfl, rfl⟩
      · obtain ⟨h1, g, hg⟩ := ih i f0 id c hf0 hm
        exact ⟨h1, keep c g hg⟩
      · exact ⟨hklt, _, after_new _⟩
    · obtain ⟨h1, g, hg⟩ := ih i f id c hf hm
      exact ⟨h1, keep c g hg⟩
    · rcases eff_new he with rfl | ⟨j, id', hj, _, _, rfl⟩
      · simp at hf2
      · obtain ⟨_, rfl⟩ := mem_singleton_get hf2
        simp [CFrame.start] at hm

/-- Unless all calls returned, a step is possible. -/
theorem progress {cap : Nat} (hcap : 2 ≤ cap) {W : CWorld} (hl : ∀ a, ∃ l, W.lists a l) (hi : ∀ id, ∃ x, W.info id x) {s : CState}
    (hruns : CRuns cap CWorld.any s) (hne : ∃ f ∈ s.frames, f.phase ≠ .returned) : ∃ s', CStep cap W s s' := by
  obtain ⟨k, g, hg, hp, hlast⟩ := last_unreturned s.frames hne
  have hinv := runs_inv (by omega) hruns
  have hpan := hinv.1
  have hfi := hinv.2 k g hg
  by_cases hsub : ∃ x ∈ g.subs, x.2.alive = true
  · obtain ⟨⟨id, pc⟩, hm, ha⟩ := hsub
    obtain ⟨j, hj⟩ := List.mem_iff_getElem?.mp hm
    obtain ⟨x, hx⟩ := hi id
    have hrun := hfi.running hj ha
    have key : (subStep s k j g id x pc).isSome → ∃ s', CStep cap W s s' := by
      intro h
      obtain ⟨s', hs'⟩ := Option.isSome_iff_exists.mp h
      refine ⟨s', .sub k j x, ?_, ?_⟩
      · intro f id' hf hj'
        rw [hg] at hf
        cases hf
        rw [hj] at hj'
        cases hj'
        exact hx
      · simp only [cstep, hpan, Bool.false_eq_true, if_false, hg, hj]
        exact hs'
    apply key
    cases pc with
    | wait c =>
      obtain ⟨hlt, g', hg'⟩ := runs_child (by omega) hruns k g id c hg hm
      simp only [subStep, hg', hlast c g' hlt hg', if_true, Option.isSome_some]
    | nest l => cases l <;> rfl
    | fwd r => cases r <;> rfl
    | gone => cases ha
    | fetch => rfl
    | send l => rfl
    | ended => rfl
    | released => rfl
  · have hz : g.subs.countP (fun x => x.2.alive) = 0 := by
      rw [List.countP_eq_zero]
      intro x hx hxa
      exact hsub ⟨x, hx, hxa⟩
    have hz' : g.subs.countP (fun x => SubRunning x.2) = 0 := by
      rw [List.countP_eq_zero]
      intro x hx hxa
      refine hsub ⟨x, hx, ?_⟩
      revert hxa
      cases x.2 <;> simp [SubRunning, SubPC.alive]
    by_cases hapc : g.apc.alive = true
    · obtain ⟨l, hl⟩ := hl g.auth
      have key : (authStep cap s k g l).isSome → ∃ s', CStep cap W s s' := by
        intro h
        obtain ⟨s', hs'⟩ := Option.isSome_iff_exists.mp h
        refine ⟨s', .auth k l, ?_, ?_⟩
        · intro f hf _
          rw [hg] at hf
          cases hf
          exact hl
        · simp only [cstep, hpan, Bool.false_eq_true, if_false, hg]
          exact hs'
      apply key
      have hsem : g.sem < cap := by
        rw [hfi.sem, workers, hz']
        split <;> omega
      unfold authStep
      cases h : g.apc with
      | spawn rest =>
        cases rest with
        | nil => rfl
        | cons id rest => simp only [hsem, if_true, Option.isSome_some]
      | gone => rw [h] at hapc; cases hapc
      | _ => rfl
    · have hwg : g.wg = 0 := by
        rw [hfi.wg, aliveCount, hz]
        simp [hapc]
      have key : (callStep s k g).isSome → ∃ s', CStep cap W s s' := by
        intro h
        obtain ⟨s', hs'⟩ := Option.isSome_iff_exists.mp h
        refine ⟨s', .call k, trivial, ?_⟩
        simp only [cstep, hpan, Bool.false_eq_true, if_false, hg]
        exact hs'
      apply key
      unfold callStep
      cases h : g.phase with
      | running => simp only [hwg, if_true, Option.isSome_some]
      | closed => rfl
      | returned => exact absurd h hp

end Oidfed
