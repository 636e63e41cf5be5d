import Verif.Lemmas.Collector
import Mathlib.Data.List.Basic
import Mathlib.Data.List.Perm.Subperm
/-!
# Entity collection terminates

Every step makes a weight smaller. The weight of a call that has not yet begun depends on how many authorities are not yet on its path.
-/

namespace Oidfed
open Oidfed.Spec

/-- Weight of a new call for `a` if at most `n` authorities may still be entered; `K` bounds the number of entities. -/
def wFrame (L : ID → List ID) (K : Nat) : Nat → ID → Nat
  | 0, _ => 8
  | n+1, a => 8 + ((L a).map (fun x => 1 + (K + 7 + wFrame L K n x))).sum

/-- Weight of the subordinates that have no worker yet. -/
def wRest (L : ID → List ID) (K n : Nat) (l : List ID) : Nat := (l.map (fun x => 1 + (K + 7 + wFrame L K n x))).sum

/-- Weight of a worker. -/
def wSub (L : ID → List ID) (K n : Nat) (x : ID × SubPC) : Nat :=
  match x.2 with
  | .fetch => K + 7 + wFrame L K n x.1
  | .send _ => K + 6 + wFrame L K n x.1
  | .nest _ => K + 5 + wFrame L K n x.1
  | .wait _ => K + 4
  | .fwd r => r.length + 3
  | .ended => 2
  | .released => 1
  | .gone => 0

/-- Weight of all that an authority lists. -/
def wList (L : ID → List ID) (K : Nat) : Nat → ID → Nat
  | 0, _ => 0
  | n+1, a => wRest L K n (L a)

def wAuth (L : ID → List ID) (K n : Nat) (f : CFrame) : Nat :=
  match f.apc with
  | .check => 6 + wList L K n f.auth
  | .add => 5 + wList L K n f.auth
  | .list => 4 + wList L K n f.auth
  | .spawn rest => 3 + wRest L K (n-1) rest
  | .ended => 2
  | .released => 1
  | .gone => 0

def wPhase : CPhase → Nat
  | .running => 2
  | .closed => 1
  | .returned => 0

/-- Weight of a call. -/
def wCall (L : ID → List ID) (K : Nat) (f : CFrame) : Nat :=
  wAuth L K (K - f.path.length) f + (f.subs.map (wSub L K (K - f.path.length - 1))).sum + wPhase f.phase

/-- Weight of a state. -/
def wState (L : ID → List ID) (K : Nat) (s : CState) : Nat := (s.frames.map (wCall L K)).sum

theorem sum_map_set {α : Type} (w : α → Nat) (l : List α) (j : Nat) (x y : α) (h : l[j]? = some x) :
    ((l.set j y).map w).sum + w x = (l.map w).sum + w y := by
  induction l generalizing j with
  | nil => simp at h
  | cons a l ih =>
    cases j with
    | zero =>
      simp only [List.getElem?_cons_zero, Option.some.injEq] at h
      subst h
      simp only [List.set_cons_zero, List.map_cons, List.sum_cons]
      omega
    | succ j =>
      simp only [List.getElem?_cons_succ] at h
      simp only [List.set_cons_succ, List.map_cons, List.sum_cons]
      have := ih j h
      omega

theorem wCall_start (L : ID → List ID) (K : Nat) (path : List ID) (a : ID) :
    wCall L K (CFrame.start path a) = wFrame L K (K - path.length) a := by
  simp only [wCall, CFrame.start, wAuth, wPhase, List.map_nil, List.sum_nil]
  cases K - path.length with
  | zero => rfl
  | succ n => simp only [wList, wFrame, wRest]; omega

/-- The path of a call: visited, without repetitions, and new at each level. -/
structure PInv (U V : List ID) (f : CFrame) : Prop where
  inU : ∀ x ∈ f.path, x ∈ U
  inV : ∀ x ∈ f.path, x ∈ V
  nodup : f.path.Nodup
  fresh : f.apc = .check ∨ (f.apc.over = true ∧ f.subs = []) ∨ f.auth ∉ f.path

theorem eff_path {cap : Nat} {W : CWorld} {s : CState} {f f' : CFrame} {add : List ID} {new : List CFrame} (h : CEff cap W s f f' add new) :
    f'.path = f.path := by
  cases h <;> simp [CFrame.setSub]

theorem eff_pinv {cap : Nat} {W : CWorld} {L : ID → List ID} {I : ID → Option (Bool × Bool)} {U : List ID} {s : CState} {f f' : CFrame}
    {add : List ID} {new : List CFrame} (h : CEff cap W s f f' add new) (hc : FComp L I s.visited f) (hp : PInv U s.visited f) :
    PInv U (add ++ s.visited) f' := by
  have hpath := eff_path h
  have hauth := eff_auth h
  refine ⟨by rw [hpath]; exact hp.inU, ?_, by rw [hpath]; exact hp.nodup, ?_⟩
  · rw [hpath]
    exact fun x hx => List.mem_append_right _ (hp.inV x hx)
  · rw [hpath, hauth]
    have sub : ∀ (j : Nat) (id : ID) (pc : SubPC), f.subs[j]? = some (id, pc) → f.auth ∉ f.path := by
      intro j id pc hj
      rcases hp.fresh with h | ⟨_, h⟩ | h
      · rw [hc.empty (.inl h)] at hj; simp at hj
      · rw [h] at hj; simp at hj
      · exact h
    have act : f.apc ≠ .check → f.apc.over = false → f.auth ∉ f.path := by
      intro h1 h2
      rcases hp.fresh with h | ⟨h, _⟩ | h
      · exact absurd h h1
      · rw [h2] at h; cases h
      · exact h
    have ov : ∀ p : AuthPC, p.over = true → f.apc.over = true → p = .check ∨ (p.over = true ∧ f.subs = []) ∨ f.auth ∉ f.path := by
      intro p h1 h2
      rcases hp.fresh with h | ⟨_, h⟩ | h
      · rw [h] at h2; cases h2
      · exact .inr (.inl ⟨h1, h⟩)
      · exact .inr (.inr h)
    cases h with
    | checkSeen h hv => exact .inr (.inl ⟨rfl, hc.empty (.inl h)⟩)
    | checkNew h hv => exact .inr (.inr fun hm => hv (hp.inV _ hm))
    | add h => exact .inr (.inr (act (by rw [h]; decide) (by rw [h]; rfl)))
    | list l h hl => exact .inr (.inr (act (by rw [h]; decide) (by rw [h]; rfl)))
    | spawn id rest h _ => exact .inr (.inr (act (by rw [h]; exact fun e => by cases e) (by rw [h]; rfl)))
    | spawnEnd h => exact .inr (.inr (act (by rw [h]; exact fun e => by cases e) (by rw [h]; rfl)))
    | authRelease h => exact ov .released rfl (by rw [h]; rfl)
    | authDone h => exact ov .gone rfl (by rw [h]; rfl)
    | fetchNone j id hj _ => exact .inr (.inr (sub _ _ _ hj))
    | fetchIn j id l hj hw => exact .inr (.inr (sub _ _ _ hj))
    | fetchOut j id l hj _ => exact .inr (.inr (sub _ _ _ hj))
    | send j id l hj _ => exact .inr (.inr (sub _ _ _ hj))
    | nestNo j id hj => exact .inr (.inr (sub _ _ _ hj))
    | nestYes j id hj => exact .inr (.inr (sub _ _ _ hj))
    | join j id c g hj hg _ => exact .inr (.inr (sub _ _ _ hj))
    | fwd j id x rest hj _ => exact .inr (.inr (sub _ _ _ hj))
    | fwdEnd j id hj => exact .inr (.inr (sub _ _ _ hj))
    | subRelease j id hj => exact .inr (.inr (sub _ _ _ hj))
    | subDone j id hj => exact .inr (.inr (sub _ _ _ hj))
    | close h hw => exact hp.fresh
    | ret h => exact hp.fresh

theorem below_inU {W : CWorld} {L : ID → List ID} {I : ID → Option (Bool × Bool)} (hst : Stable W L I) {U : List ID} {anchor : ID} (hA : anchor ∈ U)
    (hU : ∀ a ∈ U, ∀ x ∈ L a, x ∈ U) {a : ID} (h : Below (CanList W) anchor a) : a ∈ U := by
  induction h with
  | anchor => exact hA
  | sub _ hl ih =>
    obtain ⟨l, hl, hx⟩ := hl
    rw [hst.lists _ _ hl] at hx
    exact hU _ ih _ hx

theorem coll_inU {W : CWorld} {L : ID → List ID} {I : ID → Option (Bool × Bool)} (hst : Stable W L I) {U : List ID} {anchor : ID} (hA : anchor ∈ U)
    (hU : ∀ a ∈ U, ∀ x ∈ L a, x ∈ U) {x : ID} (h : Coll W anchor x) : x ∈ U := by
  obtain ⟨⟨a, ha, hl⟩, _⟩ := h
  exact below_inU hst hA hU (.sub ha hl)

theorem length_le_of_nodup {l U : List ID} (h : l.Nodup) (hU : ∀ x ∈ l, x ∈ U) : l.length ≤ U.length :=
  (h.subperm hU).length_le

theorem run_pinv {cap : Nat} (hcap : 0 < cap) {W : CWorld} {L : ID → List ID} {I : ID → Option (Bool × Bool)} (hst : Stable W L I)
    {U : List ID} {anchor : ID} (hA : anchor ∈ U) (hU : ∀ a ∈ U, ∀ x ∈ L a, x ∈ U) {s0 : CState} (h0 : CIdle cap s0) {s : CState}
    (h : CRun cap W s0 anchor s) : ∀ (i : Nat) (f : CFrame), s0.frames.length ≤ i → s.frames[i]? = some f → PInv U s.visited f := by
  induction h with
  | init =>
    intro i f hi hf
    obtain ⟨_, rfl⟩ := init_get hi hf
    exact ⟨by simp [CFrame.start], by simp [CFrame.start], by simp [CFrame.start], .inl rfl⟩
  | @step s s' hr hs ih =>
    have hinv := runs_inv hcap (hr.runs h0)
    obtain ⟨_, hcomp⟩ := run_comp hcap hst h0 hr
    obtain ⟨i, f, f', add, new, hf, he, rfl⟩ := cstep_eff hs hinv.not_closed
    have hy := hr.young hcap h0 hf he
    intro k g hk hg
    rcases after_get hf hg with ⟨_, rfl⟩ | ⟨_, hg⟩ | ⟨m, _, hg2⟩
    · exact eff_pinv he (hcomp i f hy hf) (ih i f hy hf)
    · have := ih k g hk hg
      exact ⟨this.inU, fun x hx => List.mem_append_right _ (this.inV x hx), this.nodup, this.fresh⟩
    · rcases eff_new he with rfl | ⟨j, id, hj, _, rfl, rfl⟩
      · simp at hg2
      · obtain ⟨_, rfl⟩ := mem_singleton_get hg2
        have hp := ih i f hy hf
        have hc := hcomp i f hy hf
        have hauth : f.auth ∉ f.path := by
          rcases hp.fresh with h | ⟨_, h⟩ | h
          · rw [hc.empty (.inl h)] at hj; simp at hj
          · rw [h] at hj; simp at hj
          · exact h
        have hseen : f.auth ∈ s.visited := by
          rcases hc.seen with h | h | h
          · rw [hc.empty (.inl h)] at hj; simp at hj
          · rw [hc.empty (.inr (.inl h))] at hj; simp at hj
          · exact h
        have hbelow := (run_sound hcap h0 hr i f hy hf).below
        refine ⟨?_, ?_, List.nodup_cons.mpr ⟨hauth, hp.nodup⟩, .inl rfl⟩
        · intro x hx
          rcases List.mem_cons.mp hx with rfl | hx
          · exact below_inU hst hA hU hbelow
          · exact hp.inU x hx
        · intro x hx
          rcases List.mem_cons.mp hx with rfl | hx
          · exact hseen
          · exact hp.inV x hx

/-- Every step makes the weight of the call smaller by more than the weight of the new call. -/
theorem eff_weight {cap : Nat} {W : CWorld} {L : ID → List ID} {I : ID → Option (Bool × Bool)} (hst : Stable W L I) {U : List ID} {s : CState}
    {f f' : CFrame} {add : List ID} {new : List CFrame} (h : CEff cap W s f f' add new) (hp : PInv U s.visited f) (hauth : f.auth ∈ U)
    (hout : ∀ (j : Nat) (id : ID) (c : Nat) (g : CFrame), f.subs[j]? = some (id, .wait c) → s.frames[c]? = some g → g.out.length ≤ U.length) :
    wCall L U.length f' + (new.map (wCall L U.length)).sum < wCall L U.length f := by
  have move : ∀ (j : Nat) (id : ID) (pc pc' : SubPC) (f0 : CFrame), f.subs[j]? = some (id, pc) →
      wSub L U.length (U.length - f.path.length - 1) (id, pc') < wSub L U.length (U.length - f.path.length - 1) (id, pc) →
      f0.subs = (f.setSub j id pc').subs → f0.apc = f.apc → f0.auth = f.auth → f0.path = f.path → f0.phase = f.phase →
      wCall L U.length f0 + wSub L U.length (U.length - f.path.length - 1) (id, pc)
        = wCall L U.length f + wSub L U.length (U.length - f.path.length - 1) (id, pc') := by
    intro j id pc pc' f0 hj _ h1 h2 h3 h4 h5
    have := sum_map_set (wSub L U.length (U.length - f.path.length - 1)) f.subs j _ (id, pc') hj
    simp only [wCall, wAuth, h1, h2, h3, h4, h5, CFrame.setSub]
    omega
  have spare : f.apc ≠ .check → f.apc.over = false → ∃ n, U.length - f.path.length = n + 1 := by
    intro h1 h2
    have hn : f.auth ∉ f.path := by
      rcases hp.fresh with h | ⟨h, _⟩ | h
      · exact absurd h h1
      · rw [h2] at h; cases h
      · exact h
    have := length_le_of_nodup (List.nodup_cons.mpr ⟨hn, hp.nodup⟩) (U := U) (by
      intro x hx
      rcases List.mem_cons.mp hx with rfl | hx
      · exact hauth
      · exact hp.inU x hx)
    simp only [List.length_cons] at this
    exact ⟨U.length - f.path.length - 1, by omega⟩
  cases h with
  | checkSeen h hv => simp only [wCall, wAuth, h, List.map_nil, List.sum_nil]; omega
  | checkNew h hv => simp only [wCall, wAuth, h, List.map_nil, List.sum_nil]; omega
  | add h => simp only [wCall, wAuth, h, List.map_nil, List.sum_nil]; omega
  | list l h hl =>
    obtain ⟨n, hn⟩ := spare (by rw [h]; decide) (by rw [h]; rfl)
    have := hst.lists _ _ hl
    subst this
    simp only [wCall, wAuth, h, hn, wList, List.map_nil, List.sum_nil, Nat.add_sub_cancel]
    omega
  | spawn id rest h _ =>
    simp only [wCall, wAuth, h, wRest, List.map_nil, List.sum_nil, List.map_append, List.map_cons, List.sum_append, List.sum_cons, wSub]
    omega
  | spawnEnd h => simp only [wCall, wAuth, h, List.map_nil, List.sum_nil]; omega
  | authRelease h => simp only [wCall, wAuth, h, List.map_nil, List.sum_nil]; omega
  | authDone h => simp only [wCall, wAuth, h, List.map_nil, List.sum_nil]; omega
  | fetchNone j id hj _ =>
    have hlt : wSub L U.length (U.length - f.path.length - 1) (id, .ended) < wSub L U.length (U.length - f.path.length - 1) (id, .fetch) := by
      simp only [wSub]; omega
    have := move j id _ .ended (f.setSub j id .ended) hj hlt rfl rfl rfl rfl rfl
    simp only [List.map_nil, List.sum_nil]
    omega
  | fetchIn j id l hj hw =>
    have hlt : wSub L U.length (U.length - f.path.length - 1) (id, .send l) < wSub L U.length (U.length - f.path.length - 1) (id, .fetch) := by
      simp only [wSub]; omega
    have := move j id _ _ (f.setSub j id (.send l)) hj hlt rfl rfl rfl rfl rfl
    simp only [List.map_nil, List.sum_nil]
    omega
  | fetchOut j id l hj _ =>
    have hlt : wSub L U.length (U.length - f.path.length - 1) (id, .nest l) < wSub L U.length (U.length - f.path.length - 1) (id, .fetch) := by
      simp only [wSub]; omega
    have := move j id _ _ (f.setSub j id (.nest l)) hj hlt rfl rfl rfl rfl rfl
    simp only [List.map_nil, List.sum_nil]
    omega
  | send j id l hj _ =>
    have hlt : wSub L U.length (U.length - f.path.length - 1) (id, .nest l) < wSub L U.length (U.length - f.path.length - 1) (id, .send l) := by
      simp only [wSub]; omega
    have := move j id _ (.nest l) ((f.setSub j id (.nest l)).receive id) hj hlt (by simp) (by simp [CFrame.setSub]) (by simp [CFrame.setSub])
      (by simp [CFrame.setSub]) (by simp [CFrame.setSub])
    simp only [List.map_nil, List.sum_nil]
    omega
  | nestNo j id hj =>
    have hlt : wSub L U.length (U.length - f.path.length - 1) (id, .ended) < wSub L U.length (U.length - f.path.length - 1) (id, .nest false) := by
      simp only [wSub]; omega
    have := move j id _ .ended (f.setSub j id .ended) hj hlt rfl rfl rfl rfl rfl
    simp only [List.map_nil, List.sum_nil]
    omega
  | nestYes j id hj =>
    have hlt : wSub L U.length (U.length - f.path.length - 1) (id, .wait s.frames.length) <
        wSub L U.length (U.length - f.path.length - 1) (id, .nest true) := by
      simp only [wSub]; omega
    have := move j id _ _ (f.setSub j id (.wait s.frames.length)) hj hlt rfl rfl rfl rfl rfl
    simp only [List.map_cons, List.map_nil, List.sum_cons, List.sum_nil, wCall_start, List.length_cons]
    have e : U.length - (f.path.length + 1) = U.length - f.path.length - 1 := by omega
    rw [e]
    simp only [wSub] at this
    omega
  | join j id c g hj hg _ =>
    have := hout j id c g hj hg
    have hlt : wSub L U.length (U.length - f.path.length - 1) (id, .fwd g.out) < wSub L U.length (U.length - f.path.length - 1) (id, .wait c) := by
      simp only [wSub]; omega
    have := move j id _ _ (f.setSub j id (.fwd g.out)) hj hlt rfl rfl rfl rfl rfl
    simp only [List.map_nil, List.sum_nil]
    omega
  | fwd j id x rest hj _ =>
    have hlt : wSub L U.length (U.length - f.path.length - 1) (id, .fwd rest) <
        wSub L U.length (U.length - f.path.length - 1) (id, .fwd (x :: rest)) := by
      simp only [wSub, List.length_cons]; omega
    have := move j id _ (.fwd rest) ((f.setSub j id (.fwd rest)).receive x) hj hlt (by simp) (by simp [CFrame.setSub]) (by simp [CFrame.setSub])
      (by simp [CFrame.setSub]) (by simp [CFrame.setSub])
    simp only [List.map_nil, List.sum_nil]
    omega
  | fwdEnd j id hj =>
    have hlt : wSub L U.length (U.length - f.path.length - 1) (id, .ended) < wSub L U.length (U.length - f.path.length - 1) (id, .fwd []) := by
      simp only [wSub, List.length_nil]; omega
    have := move j id _ .ended (f.setSub j id .ended) hj hlt rfl rfl rfl rfl rfl
    simp only [List.map_nil, List.sum_nil]
    omega
  | subRelease j id hj =>
    have hlt : wSub L U.length (U.length - f.path.length - 1) (id, .released) < wSub L U.length (U.length - f.path.length - 1) (id, .ended) := by
      simp only [wSub]; omega
    have := move j id _ .released { f.setSub j id .released with sem := f.sem - 1 } hj hlt rfl rfl rfl rfl rfl
    dsimp only at this
    simp only [List.map_nil, List.sum_nil]
    omega
  | subDone j id hj =>
    have hlt : wSub L U.length (U.length - f.path.length - 1) (id, .gone) < wSub L U.length (U.length - f.path.length - 1) (id, .released) := by
      simp only [wSub]; omega
    have := move j id _ .gone { f.setSub j id .gone with wg := f.wg - 1 } hj hlt rfl rfl rfl rfl rfl
    dsimp only at this
    simp only [List.map_nil, List.sum_nil]
    omega
  | close h hw => simp only [wCall, wAuth, wPhase, h, List.map_nil, List.sum_nil]; omega
  | ret h => simp only [wCall, wAuth, wPhase, h, List.map_nil, List.sum_nil]; omega

theorem step_weight {cap : Nat} (hcap : 0 < cap) {W : CWorld} {L : ID → List ID} {I : ID → Option (Bool × Bool)} (hst : Stable W L I)
    {U : List ID} {anchor : ID} (hA : anchor ∈ U) (hU : ∀ a ∈ U, ∀ x ∈ L a, x ∈ U) {s0 : CState} (h0 : CIdle cap s0) {s s' : CState}
    (h : CRun cap W s0 anchor s) (hs : CStep cap W s s') : wState L U.length s' < wState L U.length s := by
  have hinv := runs_inv hcap (h.runs h0)
  obtain ⟨i, f, f', add, new, hf, he, rfl⟩ := cstep_eff hs hinv.not_closed
  have hy := h.young hcap h0 hf he
  have hsound := run_sound hcap h0 h
  have := eff_weight hst he (run_pinv hcap hst hA hU h0 h i f hy hf) (below_inU hst hA hU (hsound i f hy hf).below) (by
    intro j id c g hj hg
    have hlt := ((run_tree hcap h0 h).child i f id c hy hf (List.mem_of_getElem? hj)).1
    exact length_le_of_nodup (hinv.2 c g hg).nodup (fun x hx => coll_inU hst hA hU ((hsound c g (by omega) hg).out x hx)))
  have hset := sum_map_set (wCall L U.length) s.frames i f f' hf
  simp only [wState, CState.after, List.map_append, List.sum_append]
  omega

end Oidfed
