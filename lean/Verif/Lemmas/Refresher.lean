import Verif.Model.Refresher
/-!
# Invariant of runs in which calls and refreshes do not overlap
-/

namespace Oidfed

theorem durSub_ge_minute {a b : Int} (h : ¬ durSub a b < minute) : a - b ≥ minute := by
  unfold durSub minute second minDuration maxDuration at *
  omega

theorem durSub_minute_mono {a b : Int} (d : Nat) (h : ¬ durSub a b < minute) : ¬ durSub ((a : Int) + (d : Int)) b < minute := by
  unfold durSub minute second minDuration maxDuration at *
  omega

theorem until_zero_gt {a m : Int} (h : untilT a Time.zero > m) (h0 : Time.zero ≤ a) (hm : 0 ≤ m) : False := by
  have h1 : (-62135596800 * 1000000000 : Int) ≤ a := h0
  unfold untilT durSub Time.zero minDuration maxDuration at h
  omega

theorem le_add_nat {t n : Int} (d : Nat) (h : t ≤ n) : t ≤ n + (d : Int) := by omega

/-- What a returned result must satisfy. -/
def ResultGood (cfg : RefreshConfig) (r : CallResult) : Prop :=
  cfg.refresh = true → 0 ≤ cfg.minLifetime → r.ok = true → r.obtained = some r.jwt ∨
    ∃ t e, r.start ≤ t ∧ t ≤ r.finish ∧ cfg.recorded r.jwt = some e ∧ untilT t e > cfg.minLifetime

/-- What holds of a goroutine that is at a certain place. -/
def PCGood (cfg : RefreshConfig) (now : Time) (v : RefreshVars) : RPC → Prop
  | .readJWT t => t ≤ now
  | .checkMin t => t ≤ now ∧ v.jwt ≠ ""
  | .checkGrace t c => t ≤ c ∧ c ≤ now ∧ (0 ≤ cfg.minLifetime → ∃ e, cfg.recorded v.jwt = some e ∧ untilT c e > cfg.minLifetime)
  | .retGood t c => t ≤ c ∧ c ≤ now ∧ (0 ≤ cfg.minLifetime → ∃ e, cfg.recorded v.jwt = some e ∧ untilT c e > cfg.minLifetime)
  | .checkLast _ => True
  | .setLast _ => ¬ durSub now v.last < minute
  | .obtain _ => True
  | .setJWT _ _ => True
  | .setExp _ j => v.jwt = j
  | .ret _ ok ob => cfg.refresh = true → ok = true → ob = some v.jwt
  | .done r => ∀ x, r = some x → ResultGood cfg x

def ExpOk (cfg : RefreshConfig) (v : RefreshVars) : Prop :=
  v.jwt = "" ∨ v.exp = (cfg.recorded v.jwt).getD Time.zero

structure RInv (cfg : RefreshConfig) (s : RSys) : Prop where
  now0 : Time.zero ≤ s.now
  head : ∀ a, s.attempts.head? = some a → s.vars.last = a
  apart : s.attempts.Pairwise (fun l e => l - e ≥ minute)
  threads : ∀ pc ∈ s.threads, PCGood cfg s.now s.vars pc
  exp : ExpOk cfg s.vars ∨ ∃ (i : Nat) (w : Option Time) (j : String), s.threads[i]? = some (.setExp w j)

theorem inactive_good {cfg : RefreshConfig} {now now' : Time} {v v' : RefreshVars} {pc : RPC} (ha : pc.active = false)
    (h : PCGood cfg now v pc) : PCGood cfg now' v' pc := by
  cases pc <;> simp_all [RPC.active, PCGood]

theorem good_tick {cfg : RefreshConfig} {now : Time} {v : RefreshVars} {pc : RPC} (d : Nat) (h : PCGood cfg now v pc) :
    PCGood cfg ((now : Int) + (d : Int)) v pc := by
  have hle := fun t => le_add_nat (t := t) (n := now) d
  cases pc with
  | readJWT t => exact hle _ h
  | checkMin t => exact ⟨hle _ h.1, h.2⟩
  | checkGrace t c => exact ⟨h.1, hle _ h.2.1, h.2.2⟩
  | retGood t c => exact ⟨h.1, hle _ h.2.1, h.2.2⟩
  | checkLast w => trivial
  | setLast w => exact durSub_minute_mono d h
  | obtain w => trivial
  | setJWT w j => trivial
  | setExp w j => exact h
  | ret w ok ob => exact h
  | done r => exact h

/-- One step of a goroutine that is alone keeps what is known about it. -/
theorem rstep_good {cfg : RefreshConfig} {now : Time} {v v' : RefreshVars} {pc pc' : RPC} {sp : Bool} {ans : Option String}
    (hn : Time.zero ≤ now) (h : rstep cfg now ans v pc = some (v', pc', sp))
    (hg : PCGood cfg now v pc) (he : ExpOk cfg v ∨ ∃ w j, pc = .setExp w j) :
    PCGood cfg now v' pc' ∧ (ExpOk cfg v' ∨ ∃ w j, pc' = .setExp w j) := by
  cases pc with
  | readJWT t =>
    simp only [rstep, Option.some.injEq, Prod.mk.injEq] at h
    obtain ⟨rfl, rfl, rfl⟩ := h
    have he' : ExpOk cfg v := by
      rcases he with he | ⟨_, _, he⟩
      · exact he
      · cases he
    refine ⟨?_, Or.inl he'⟩
    by_cases hj : v.jwt = ""
    · simp [hj, PCGood]
    · simp only [hj, ne_eq, not_false_eq_true, if_true]
      exact ⟨hg, hj⟩
  | checkMin t =>
    simp only [rstep, Option.some.injEq, Prod.mk.injEq] at h
    obtain ⟨rfl, rfl, rfl⟩ := h
    have he' : ExpOk cfg v := by
      rcases he with he | ⟨_, _, he⟩
      · exact he
      · cases he
    refine ⟨?_, Or.inl he'⟩
    by_cases hu : untilT now v.exp > cfg.minLifetime
    · rw [if_pos hu]
      refine ⟨hg.1, Int.le_refl _, fun hm => ?_⟩
      rcases he' with he' | he'
      · exact absurd he' hg.2
      · cases hr : cfg.recorded v.jwt with
        | none =>
          rw [he', hr] at hu
          exact (until_zero_gt hu hn hm).elim
        | some e =>
          rw [he', hr] at hu
          exact ⟨e, rfl, hu⟩
    · rw [if_neg hu]
      trivial
  | checkGrace t c =>
    simp only [rstep, Option.some.injEq, Prod.mk.injEq] at h
    obtain ⟨rfl, rfl, rfl⟩ := h
    refine ⟨hg, Or.inl ?_⟩
    rcases he with he | ⟨_, _, he⟩
    · exact he
    · cases he
  | retGood t c =>
    simp only [rstep, Option.some.injEq, Prod.mk.injEq] at h
    obtain ⟨rfl, rfl, rfl⟩ := h
    refine ⟨?_, Or.inl ?_⟩
    · intro x hx
      cases hx
      intro _ hm _
      obtain ⟨h1, h2, h3⟩ := hg
      obtain ⟨e, h3, h4⟩ := h3 hm
      exact Or.inr ⟨c, e, h1, h2, h3, h4⟩
    · rcases he with he | ⟨_, _, he⟩
      · exact he
      · cases he
  | checkLast w =>
    simp only [rstep, Option.some.injEq, Prod.mk.injEq] at h
    obtain ⟨rfl, rfl, rfl⟩ := h
    refine ⟨?_, Or.inl ?_⟩
    · by_cases hl : durSub now v.last < minute
      · rw [if_pos hl]
        intro _ hc; cases hc
      · rw [if_neg hl]
        exact hl
    · rcases he with he | ⟨_, _, he⟩
      · exact he
      · cases he
  | setLast w =>
    simp only [rstep, Option.some.injEq, Prod.mk.injEq] at h
    obtain ⟨rfl, rfl, rfl⟩ := h
    refine ⟨trivial, Or.inl ?_⟩
    rcases he with he | ⟨_, _, he⟩
    · exact he
    · cases he
  | obtain w =>
    simp only [rstep, Option.some.injEq, Prod.mk.injEq] at h
    obtain ⟨rfl, rfl, rfl⟩ := h
    refine ⟨?_, Or.inl ?_⟩
    · cases ans with
      | none => intro _ hc; cases hc
      | some j => trivial
    · rcases he with he | ⟨_, _, he⟩
      · exact he
      · cases he
  | setJWT w j =>
    simp only [rstep, Option.some.injEq, Prod.mk.injEq] at h
    obtain ⟨rfl, rfl, rfl⟩ := h
    exact ⟨rfl, Or.inr ⟨w, j, rfl⟩⟩
  | setExp w j =>
    simp only [rstep, Option.some.injEq, Prod.mk.injEq] at h
    obtain ⟨rfl, rfl, rfl⟩ := h
    have hg' : v.jwt = j := hg
    subst hg'
    exact ⟨fun _ _ => rfl, Or.inl (Or.inr rfl)⟩
  | ret w ok ob =>
    simp only [rstep, Option.some.injEq, Prod.mk.injEq] at h
    obtain ⟨rfl, rfl, rfl⟩ := h
    refine ⟨?_, Or.inl ?_⟩
    · intro x hx hr _ hok
      cases w with
      | none => cases hx
      | some t =>
        simp only [Option.map_some, Option.some.injEq] at hx
        subst hx
        exact Or.inl (hg hr hok)
    · rcases he with he | ⟨_, _, he⟩
      · exact he
      · cases he
  | done r => cases h

theorem rstep_last {cfg : RefreshConfig} {now : Time} {v v' : RefreshVars} {pc pc' : RPC} {sp : Bool} {ans : Option String}
    (h : rstep cfg now ans v pc = some (v', pc', sp)) :
    (pc.attempt now = [now] ∧ v'.last = now ∧ ∃ w, pc = .setLast w) ∨ (pc.attempt now = [] ∧ v'.last = v.last) := by
  cases pc with
  | setLast w =>
    simp only [rstep, Option.some.injEq, Prod.mk.injEq] at h
    obtain ⟨rfl, rfl, rfl⟩ := h
    exact Or.inl ⟨rfl, rfl, w, rfl⟩
  | done r => cases h
  | _ =>
    simp only [rstep, Option.some.injEq, Prod.mk.injEq] at h
    obtain ⟨rfl, rfl, rfl⟩ := h
    exact Or.inr ⟨rfl, rfl⟩

theorem step_inv {cfg : RefreshConfig} {s t : RSys} (hs : RInv cfg s)
    (h : RSys.SeqStep cfg s t) : RInv cfg t := by
  obtain ⟨hn, hh, hp, ht, he⟩ := hs
  cases h with
  | tick d =>
    refine ⟨?_, hh, hp, fun pc hpc => good_tick d (ht pc hpc), he⟩
    exact le_add_nat d hn
  | call hq =>
    refine ⟨hn, hh, hp, ?_, ?_⟩
    · intro pc hpc
      rcases List.mem_append.mp hpc with hpc | hpc
      · exact ht pc hpc
      · rw [List.mem_singleton] at hpc
        subst hpc
        cases hr : cfg.refresh <;> simp [RefreshConfig.entry, hr, PCGood]
    · rcases he with he | ⟨i, w, j, he⟩
      · exact Or.inl he
      · have := hq _ (List.mem_of_getElem? he)
        cases this
  | run i pc pc' v' spawn ans hi hq h =>
    have hpc : PCGood cfg s.now s.vars pc := ht pc (List.mem_of_getElem? hi)
    have hlt : i < s.threads.length := (List.getElem?_eq_some_iff.mp hi).1
    have he' : ExpOk cfg s.vars ∨ ∃ w j, pc = .setExp w j := by
      rcases he with he | ⟨k, w, j, he⟩
      · exact Or.inl he
      · by_cases hk : k = i
        · subst hk
          rw [hi] at he
          exact Or.inr ⟨w, j, Option.some.inj he⟩
        · have := hq k _ hk he
          cases this
    obtain ⟨hg', hx'⟩ := rstep_good hn h hpc he'
    have hl := rstep_last h
    refine ⟨hn, ?_, ?_, ?_, ?_⟩
    · intro a ha
      rcases hl with ⟨h1, h2, _⟩ | ⟨h1, h2⟩
      · simp only [h1, List.singleton_append, List.head?_cons, Option.some.injEq] at ha
        rw [← ha]; exact h2
      · simp only [h1, List.nil_append] at ha
        show v'.last = a
        rw [h2]; exact hh a ha
    · rcases hl with ⟨h1, h2, w, rfl⟩ | ⟨h1, h2⟩
      · simp only [h1, List.singleton_append]
        refine List.pairwise_cons.mpr ⟨?_, hp⟩
        have hge := durSub_ge_minute hpc
        cases hat : s.attempts with
        | nil => intro a ha; cases ha
        | cons b bs =>
          have hb := hh b (by rw [hat]; rfl)
          rw [hb] at hge
          intro a ha
          rcases List.mem_cons.mp ha with rfl | ha
          · exact hge
          · rw [hat] at hp
            have := (List.pairwise_cons.mp hp).1 a ha
            have key : ∀ x y z : Int, x - y ≥ minute → y - z ≥ minute → x - z ≥ minute := by
              intro x y z; unfold minute second; omega
            exact key _ _ _ hge this
      · simp only [h1, List.nil_append]
        exact hp
    · intro q hqm
      rcases List.mem_append.mp hqm with hqm | hqm
      · obtain ⟨k, hk⟩ := List.mem_iff_getElem?.mp hqm
        rw [List.getElem?_set] at hk
        by_cases hki : i = k
        · rw [if_pos hki] at hk
          subst hki
          rw [if_pos hlt] at hk
          cases hk
          exact hg'
        · rw [if_neg hki] at hk
          exact inactive_good (hq k q (fun hc => hki hc.symm) hk) (ht q (List.mem_of_getElem? hk))
      · cases spawn with
        | false => cases hqm
        | true =>
          simp only [if_true, List.mem_singleton] at hqm
          subst hqm
          trivial
    · rcases hx' with hx' | ⟨w, j, hx'⟩
      · exact Or.inl hx'
      · refine Or.inr ⟨i, w, j, ?_⟩
        show (s.threads.set i pc' ++ _)[i]? = _
        rw [List.getElem?_append_left (by simpa using hlt), List.getElem?_set_self hlt, hx']

theorem init_inv (cfg : RefreshConfig) {now : Time} (jwt : String) (hn : Time.zero ≤ now) : RInv cfg (RSys.init cfg now jwt) := by
  refine ⟨hn, ?_, ?_, ?_, Or.inl ?_⟩
  · intro a ha; cases ha
  · exact List.Pairwise.nil
  · intro pc hpc; cases hpc
  · by_cases hj : jwt = ""
    · exact Or.inl hj
    · exact Or.inr (by simp [RSys.init, hj])

theorem run_inv {cfg : RefreshConfig} {s t : RSys} (hs : RInv cfg s)
    (h : RSteps (RSys.SeqStep cfg) s t) : RInv cfg t := by
  induction h with
  | refl => exact hs
  | step _ h ih => exact step_inv ih h

end Oidfed
