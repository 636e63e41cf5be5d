import Verif.Lemmas.Refresher
import Verif.Spec.Refresher
/-!
# C42, C43: refreshed trust marks
-/

namespace Oidfed

open Spec

theorem untilT_gt {t e m : Int} (hm : 0 ≤ m) (h : untilT t e > m) : e - t > m := by
  unfold untilT durSub minDuration maxDuration at h
  omega

/-! ## C42 -/

/-- C42, for every history, clock and answer of the issuer, as long as calls and background refreshes do not overlap: contacts with
the issuer are at least a minute apart. Missing: overlapping calls, for which it is false (below). -/
theorem C42_once_per_minute_partial (cfg : RefreshConfig) (now : Time) (jwt : String) (hn : Time.zero ≤ now) (s : RSys)
    (h : RSteps (RSys.SeqStep cfg) (RSys.init cfg now jwt) s) : OncePerMinute s.attempts := by
  have hp := (run_inv (init_inv cfg jwt hn) h).apart
  have key : ∀ (i j : Nat) (a b : Time), i < j → s.attempts[i]? = some a → s.attempts[j]? = some b →
      60000000000 ≤ (a - b : Int) := by
    intro i j a b hij ha hb
    obtain ⟨hi, rfl⟩ := List.getElem?_eq_some_iff.mp ha
    obtain ⟨hj, rfl⟩ := List.getElem?_eq_some_iff.mp hb
    exact List.pairwise_iff_getElem.mp hp i j hi hj hij
  intro i j a b hij ha hb
  rcases Nat.lt_or_gt_of_ne hij with h1 | h1
  · exact Or.inl (key i j a b h1 ha hb)
  · exact Or.inr (key j i b a h1 hb ha)

namespace Ex

/-- A configuration with the defaults. Marks "a", "b" and "short" expire after 100, 10000 and 5 s; "forever" does not expire. -/
def rcfg : RefreshConfig :=
  RefreshConfig.verify "" ⟨false, 0, 0, fun j =>
    if j = "a" then some (100 * second) else if j = "b" then some (10000 * second) else if j = "short" then some (5 * second) else none⟩

/-- Executes a list of moves: `none` lets ten seconds pass, `some (i, ans)` runs goroutine `i`; a new index is a new call. -/
def rexec (cfg : RefreshConfig) (s : RSys) : List (Option (Nat × Option String)) → RSys
  | [] => s
  | none :: ms => rexec cfg { s with now := (s.now : Int) + ((10000000000 : Nat) : Int) } ms
  | some (i, ans) :: ms =>
    match s.threads[i]? with
    | none => rexec cfg { s with threads := s.threads ++ [cfg.entry s.now] } ms
    | some pc =>
      match rstep cfg s.now ans s.vars pc with
      | none => rexec cfg s ms
      | some (v', pc', sp) =>
        rexec cfg { s with vars := v', threads := s.threads.set i pc' ++ (if sp then [.checkLast none] else []), attempts := pc.attempt s.now ++ s.attempts } ms

theorem rexec_steps (cfg : RefreshConfig) (ms : List (Option (Nat × Option String))) (s0 s : RSys)
    (h : RSteps (RSys.Step cfg) s0 s) : RSteps (RSys.Step cfg) s0 (rexec cfg s ms) := by
  induction ms generalizing s with
  | nil => exact h
  | cons m ms ih =>
    cases m with
    | none => exact ih _ (.step h (.tick s 10000000000))
    | some m =>
      obtain ⟨i, ans⟩ := m
      simp only [rexec]
      cases hi : s.threads[i]? with
      | none => exact ih _ (.step h (.call s))
      | some pc =>
        simp only
        cases hr : rstep cfg s.now ans s.vars pc with
        | none => exact ih _ h
        | some r =>
          obtain ⟨v', pc', sp⟩ := r
          exact ih _ (.step h (.run s i pc pc' v' sp ans hi hr))

def allIdle (ts : List RPC) : Bool := ts.all (fun pc => !pc.active)

/-- The same, but only if nothing overlaps; otherwise the move is skipped. -/
def rexecSeq (cfg : RefreshConfig) (s : RSys) : List (Option (Nat × Option String)) → RSys
  | [] => s
  | none :: ms => rexecSeq cfg { s with now := (s.now : Int) + ((10000000000 : Nat) : Int) } ms
  | some (i, ans) :: ms =>
    match s.threads[i]? with
    | none => if allIdle s.threads then rexecSeq cfg { s with threads := s.threads ++ [cfg.entry s.now] } ms else rexecSeq cfg s ms
    | some pc =>
      match rstep cfg s.now ans s.vars pc with
      | none => rexecSeq cfg s ms
      | some (v', pc', sp) =>
        if allIdle (s.threads.eraseIdx i) then
          rexecSeq cfg { s with vars := v', threads := s.threads.set i pc' ++ (if sp then [.checkLast none] else []), attempts := pc.attempt s.now ++ s.attempts } ms
        else rexecSeq cfg s ms

theorem rexecSeq_steps (cfg : RefreshConfig) (ms : List (Option (Nat × Option String))) (s0 s : RSys)
    (h : RSteps (RSys.SeqStep cfg) s0 s) : RSteps (RSys.SeqStep cfg) s0 (rexecSeq cfg s ms) := by
  induction ms generalizing s with
  | nil => exact h
  | cons m ms ih =>
    cases m with
    | none => exact ih _ (.step h (.tick s 10000000000))
    | some m =>
      obtain ⟨i, ans⟩ := m
      simp only [rexecSeq]
      cases hi : s.threads[i]? with
      | none =>
        simp only
        by_cases ha : allIdle s.threads = true
        · rw [if_pos ha]
          refine ih _ (.step h (.call s ?_))
          intro pc hpc
          have := List.all_eq_true.mp ha pc hpc
          simpa using this
        · rw [if_neg ha]
          exact ih _ h
      | some pc =>
        simp only
        cases hr : rstep cfg s.now ans s.vars pc with
        | none => exact ih _ h
        | some r =>
          obtain ⟨v', pc', sp⟩ := r
          simp only
          by_cases ha : allIdle (s.threads.eraseIdx i) = true
          · rw [if_pos ha]
            refine ih _ (.step h (.run s i pc pc' v' sp ans hi ?_ hr))
            intro j q hj hq
            have hm : q ∈ s.threads.eraseIdx i := List.mem_eraseIdx_iff_getElem?.mpr ⟨j, hj, hq⟩
            have := List.all_eq_true.mp ha q hm
            simpa using this
          · rw [if_neg ha]
            exact ih _ h

/-- A call from beginning to end, in goroutine `i`. -/
def whole (i : Nat) (ans : Option String) : List (Option (Nat × Option String)) := List.replicate 9 (some (i, ans))

/-- A call that obtains "a" at time 0; a minute of waiting; a call that finds "a" good but in the grace period; the background
refresh it started, which obtains "b"; a third call that returns "b". -/
def seqRun : RSys :=
  rexecSeq rcfg (RSys.init rcfg 0 "") (whole 0 (some "a") ++ List.replicate 6 none ++ whole 1 none ++ whole 2 (some "b") ++ whole 3 none)

example : seqRun.attempts = [60000000000, 0] ∧ seqRun.vars.jwt = "b" := by decide

example : Returned seqRun ⟨0, 0, "a", true, some "a"⟩ ∧ Returned seqRun ⟨60000000000, 60000000000, "a", true, none⟩ ∧
    Returned seqRun ⟨60000000000, 60000000000, "b", true, none⟩ := by
  unfold Returned
  refine ⟨List.mem_iff_getElem?.mpr ⟨0, rfl⟩, List.mem_iff_getElem?.mpr ⟨1, rfl⟩, List.mem_iff_getElem?.mpr ⟨3, rfl⟩⟩

/-- The hypotheses of C42 and C43 are met by this run. -/
example : Time.zero ≤ 0 ∧ RSteps (RSys.SeqStep rcfg) (RSys.init rcfg 0 "") seqRun ∧ rcfg.refresh = true ∧ 0 ≤ rcfg.minLifetime :=
  ⟨by decide, rexecSeq_steps _ _ _ _ (.refl _), rfl, by decide⟩

end Ex

/-- C42 is false if calls overlap: two calls both look at the time of the last attempt before either of them records its own,
and both contact the issuer, at the same time. -/
theorem C42_once_per_minute_refuted : ∃ (cfg : RefreshConfig) (now : Time) (jwt : String) (s : RSys), Time.zero ≤ now ∧ cfg.refresh = true ∧
    RSteps (RSys.Step cfg) (RSys.init cfg now jwt) s ∧ ¬ OncePerMinute s.attempts := by
  refine ⟨Ex.rcfg, 0, "", Ex.rexec Ex.rcfg (RSys.init Ex.rcfg 0 "")
    ((List.replicate 3 (some (0, none))) ++ (List.replicate 4 (some (1, none))) ++ [some (0, none)]), by decide, rfl,
    Ex.rexec_steps _ _ _ _ (.refl _), ?_⟩
  intro h
  have := h 0 1 0 0 (by decide) (by rfl) (by rfl)
  revert this
  decide

/-! ## C43 -/

/-- C43, for every history, clock and answer of the issuer, as long as calls and background refreshes do not overlap: a call that
returns without error returns a mark it has just obtained or one that has more than the minimum lifetime left. Missing: overlapping calls, and
marks that never expire; for both it is false (below). -/
theorem C43_fresh_partial (cfg : RefreshConfig) (now : Time) (jwt : String) (hn : Time.zero ≤ now) (hr : cfg.refresh = true)
    (hm : 0 ≤ cfg.minLifetime) (s : RSys) (h : RSteps (RSys.SeqStep cfg) (RSys.init cfg now jwt) s) (r : CallResult)
    (hret : Returned s r) (hok : r.ok = true) : FreshEnough cfg r := by
  rcases (run_inv (init_inv cfg jwt hn) h).threads _ hret r rfl hr hm hok with h | ⟨t, e, h1, h2, h3, h4⟩
  · exact Or.inl h
  · exact Or.inr ⟨t, e, h1, h2, h3, untilT_gt hm h4⟩

/-- C43 is false if calls overlap: the new mark is stored before its expiry. A call that comes in between judges the new mark by
the expiry of the old one. Here it returns a mark that has five seconds left although ten are required. -/
theorem C43_fresh_refuted : ∃ (cfg : RefreshConfig) (now : Time) (jwt : String) (s : RSys) (r : CallResult), Time.zero ≤ now ∧
    cfg.refresh = true ∧ 0 ≤ cfg.minLifetime ∧ RSteps (RSys.Step cfg) (RSys.init cfg now jwt) s ∧ Returned s r ∧ r.ok = true ∧
    ¬ FreshEnough cfg r := by
  refine ⟨Ex.rcfg, 0, "a", Ex.rexec Ex.rcfg (RSys.init Ex.rcfg 0 "a")
    (List.replicate 5 (some (0, none)) ++ List.replicate 4 (some (1, some "short")) ++ List.replicate 5 (some (2, none))),
    ⟨0, 0, "short", true, none⟩, by decide, rfl, by decide,
    Ex.rexec_steps _ _ _ _ (.refl _), ?_, rfl, ?_⟩
  · exact List.mem_iff_getElem?.mpr ⟨2, rfl⟩
  · rintro (h | ⟨t, e, h1, _, h3, h4⟩)
    · cases h
    · have he : e = 5 * second := by
        have : Ex.rcfg.recorded "short" = some (5 * second) := rfl
        exact Option.some.inj (h3.symm.trans this)
      have hm : Ex.rcfg.minLifetime = 10 * second := rfl
      have key : ∀ x y : Int, 0 ≤ x → y = 5 * second → y - x > 10 * second → False := by
        intro x y; unfold second; omega
      rw [hm] at h4
      exact key t e h1 he h4

/-- C43 is false of marks that never expire: the missing expiry is taken for one in the distant past, so every call contacts the
issuer, and a second call within a minute returns an error. -/
theorem C43_unlimited_refuted : ∃ (cfg : RefreshConfig) (now : Time) (jwt : String) (s : RSys) (r1 r2 : CallResult), Time.zero ≤ now ∧
    cfg.refresh = true ∧ 0 ≤ cfg.minLifetime ∧ RSteps (RSys.SeqStep cfg) (RSys.init cfg now jwt) s ∧ Returned s r1 ∧ Returned s r2 ∧
    r1.ok = true ∧ r1.obtained = some r1.jwt ∧ cfg.recorded r1.jwt = none ∧ r1.finish ≤ r2.start ∧ r2.ok = false := by
  refine ⟨Ex.rcfg, 0, "", Ex.rexecSeq Ex.rcfg (RSys.init Ex.rcfg 0 "") (Ex.whole 0 (some "forever") ++ [none] ++ Ex.whole 1 none),
    ⟨0, 0, "forever", true, some "forever"⟩, ⟨10000000000, 10000000000, "forever", false, none⟩, by decide, rfl, by decide,
    Ex.rexecSeq_steps _ _ _ _ (.refl _), ?_, ?_, rfl, rfl, rfl, by decide, rfl⟩
  · exact List.mem_iff_getElem?.mpr ⟨0, rfl⟩
  · exact List.mem_iff_getElem?.mpr ⟨1, rfl⟩

end Oidfed
