import Verif.Spec.OwnMarks
import Verif.Props.MarkJSON
import Verif.Props.Refresher
/-!
# C137: the trust marks an entity publishes are the configured ones
-/

namespace Oidfed
open Spec

/-! ## Checking a configuration -/

/-- **C137**, which configurations are accepted. -/
theorem C137_accepted (J : String → Option ConfiguredJWT) (sub endpoint : String) (sign : Option Signer) (c : MarkConfig) :
    (c.verify J sub endpoint sign).1 = true ↔ Acceptable J c := by
  unfold MarkConfig.verify Acceptable
  by_cases hj : c.jwt = ""
  · simp only [hj, ne_eq, not_true_eq_false, if_false, false_and, true_and, false_or]
    cases hs : c.selfIssued <;> simp [not_or]
  · simp only [hj, ne_eq, not_false_eq_true, if_true, true_and, false_and, or_false]
    cases hp : J c.jwt with
    | none => simp
    | some p => cases ht : p.type <;> simp [ht]

/-- What `Verify` does to the fields used later. -/
theorem verify_fields {J : String → Option ConfiguredJWT} {sub endpoint : String} {sign : Option Signer} {c c' : MarkConfig}
    (h : c.verify J sub endpoint sign = (true, c')) : c'.sub = sub ∧ c'.ownEndpoint = endpoint ∧ c'.selfIssued = c.selfIssued ∧ c'.jwt = c.jwt ∧
      ConfiguredAs J c c'.type c'.issuer ∧ (c.jwt = "" → c'.refresh = true ∧ c'.expiration = c.expiration) ∧ (c.jwt ≠ "" → c'.refresh = c.refresh ∧ c'.ownIssuer = c.ownIssuer) ∧
      (c.jwt = "" → c.selfIssued = true → c'.ownIssuer = some ⟨sub, sign, [{ c.spec with type := c.type }]⟩) := by
  unfold MarkConfig.verify at h
  by_cases hj : c.jwt = ""
  · simp only [hj, ne_eq, not_true_eq_false, if_false] at h
    cases hs : c.selfIssued with
    | true =>
      simp only [hs, if_true, Prod.mk.injEq, decide_eq_true_eq] at h
      obtain ⟨_, rfl⟩ := h
      exact ⟨rfl, rfl, rfl, hj.symm, .inl ⟨hj, rfl, rfl⟩, fun _ => ⟨rfl, rfl⟩, fun x => absurd hj x, fun _ _ => rfl⟩
    | false =>
      simp only [hs, Bool.false_eq_true, if_false, Prod.mk.injEq, decide_eq_true_eq] at h
      obtain ⟨_, rfl⟩ := h
      exact ⟨rfl, rfl, rfl, hj.symm, .inl ⟨hj, rfl, rfl⟩, fun _ => ⟨rfl, rfl⟩, fun x => absurd hj x, fun _ x => absurd x (by decide)⟩
  · simp only [hj, ne_eq, not_false_eq_true, if_true] at h
    cases hp : J c.jwt with
    | none => rw [hp] at h; cases h
    | some p =>
      simp only [hp] at h
      cases ht : p.type with
      | none => rw [ht] at h; cases h
      | some t =>
        simp only [ht, Prod.mk.injEq, true_and] at h
        subst h
        exact ⟨rfl, rfl, rfl, rfl, .inr ⟨hj, p, hp, ht, rfl⟩, fun x => absurd x hj, fun _ => ⟨rfl, rfl⟩, fun x => absurd x hj⟩

theorem configuredAs_unique {J : String → Option ConfiguredJWT} {c : MarkConfig} {t t' i i' : String} (h : ConfiguredAs J c t i) (h' : ConfiguredAs J c t' i') :
    t = t' ∧ i = i' := by
  rcases h with ⟨e, rfl, rfl⟩ | ⟨e, p, h1, h2, rfl⟩
  · rcases h' with ⟨_, rfl, rfl⟩ | ⟨e', _⟩
    · exact ⟨rfl, rfl⟩
    · exact absurd e e'
  · rcases h' with ⟨e', _⟩ | ⟨_, p', h1', h2', rfl⟩
    · exact absurd e' e
    · rw [h1] at h1'; cases h1'
      rw [h2] at h2'; cases h2'
      exact ⟨rfl, rfl⟩

/-! ## Asking for a mark -/

/-- **C137**, the requests: nobody is asked for a self-issued mark; otherwise only the configured issuer for its entity configuration, and its trust mark endpoint for a mark of the configured
type for the entity. -/
theorem C137_requests (J : String → Option ConfiguredJWT) (sub endpoint : String) (sign : Option Signer) (c c' : MarkConfig)
    (h : c.verify J sub endpoint sign = (true, c')) (type issuer : String) (hc : ConfiguredAs J c type issuer) (R : JWTReader) (W : MarkWorld) (now : Time)
    (q : MarkReq) (hq : q ∈ (c'.obtain R W now).2) :
    c.selfIssued = false ∧ ((q = .config issuer ∧ issuer ≠ sub) ∨ ∃ e, q = .mark e type sub ∧ EndpointFor W sub endpoint issuer e) := by
  obtain ⟨h1, h2, h3, _, h5, _⟩ := verify_fields h
  obtain ⟨rfl, rfl⟩ := configuredAs_unique hc h5
  unfold MarkConfig.obtain at hq
  rw [h3, h1, h2] at hq
  cases hs : c.selfIssued with
  | true => simp [hs] at hq
  | false =>
    refine ⟨rfl, ?_⟩
    simp only [hs, Bool.false_eq_true, if_false] at hq
    by_cases he : c'.issuer = sub
    · rw [if_pos he] at hq
      simp only [List.mem_singleton] at hq
      exact .inr ⟨_, hq, .inl ⟨he, rfl⟩⟩
    · rw [if_neg he] at hq
      cases hw : W.endpoint c'.issuer with
      | none =>
        rw [hw] at hq
        simp only [List.mem_singleton] at hq
        exact .inl ⟨hq, he⟩
      | some ep =>
        simp only [hw] at hq
        by_cases hep : ep = ""
        · rw [if_pos hep] at hq
          simp only [List.mem_singleton] at hq
          exact .inl ⟨hq, he⟩
        · rw [if_neg hep] at hq
          simp only [List.mem_cons, List.not_mem_nil, or_false] at hq
          rcases hq with rfl | rfl
          · exact .inl ⟨rfl, he⟩
          · exact .inr ⟨ep, rfl, .inr ⟨he, hw, hep⟩⟩

/-- **C137** (part), no panic: obtaining a mark never panics if no JWT is configured for a self-issued mark and self-issued marks have a signer. It is missing that it never panics, which is
false (below). -/
theorem C137_no_panic_partial (J : String → Option ConfiguredJWT) (sub endpoint : String) (sign : Option Signer) (c c' : MarkConfig)
    (h : c.verify J sub endpoint sign = (true, c')) (hp : c.selfIssued = true → c.jwt = "" ∧ sign ≠ none) (R : JWTReader) (W : MarkWorld) (now : Time) :
    (c'.obtain R W now).1 ≠ .error .panic := by
  obtain ⟨_, _, h3, _, _, _, _, h7⟩ := verify_fields h
  unfold MarkConfig.obtain
  rw [h3]
  cases hs : c.selfIssued with
  | true =>
    obtain ⟨hj, hn⟩ := hp hs
    rw [if_pos rfl, h7 hj hs]
    cases hsg : sign with
    | none => exact absurd hsg hn
    | some S =>
      simp only [OwnIssuer.issue]
      split
      · rename_i f hf
        intro e
        simp only [Except.error.injEq] at e
        subst e
        split at hf
        · cases hf
        · split at hf <;> cases hf
      · simp
  | false =>
    simp only [Bool.false_eq_true, if_false]
    have ask : ∀ ep : String, (match httpBody (W.get ep c'.type c'.sub) with
      | none => (.error .error : Res (String × Option Time))
      | some body =>
        match parseMark R body with
        | none => .error .error
        | some m => .ok (body, m.exp)) ≠ .error .panic := by
      intro ep
      split
      · simp
      · split <;> simp
    split
    · exact ask _
    · split
      · simp
      · split
        · simp
        · exact ask _

/-! ## Where the published marks come from -/

/-- The mark was obtained between `t0` and `n`. -/
def ObtainedBy (R : JWTReader) (c : MarkConfig) (worlds : Time → MarkWorld → Prop) (t0 n : Time) (j : String) : Prop :=
  ∃ t W x, t0 ≤ t ∧ t ≤ n ∧ worlds t W ∧ (c.obtain R W t).1 = .ok (j, x)

/-- What is known of the mark at each place. -/
def PCSrc (c : MarkConfig) (A : Time → String → Prop) (n : Time) (j : String) : RPC → Prop
  | .checkMin _ => c.jwt ≠ "" ∨ A n j
  | .checkGrace _ _ => c.jwt ≠ "" ∨ A n j
  | .retGood _ _ => c.jwt ≠ "" ∨ A n j
  | .setJWT _ k => A n k
  | .setExp _ _ => A n j
  | .ret _ ok _ => ok = true → c.jwt ≠ "" ∨ A n j
  | .done r => ∀ x, r = some x → x.ok = true → (c.jwt ≠ "" ∧ x.jwt = c.jwt) ∨ A x.finish x.jwt
  | _ => True

theorem pcSrc_mono {c : MarkConfig} {A : Time → String → Prop} {n m : Time} {j : String} (hA : ∀ k, A n k → A m k) {pc : RPC} (h : PCSrc c A n j pc) : PCSrc c A m j pc := by
  cases pc with
  | checkMin t => exact h.imp id (hA _)
  | checkGrace t d => exact h.imp id (hA _)
  | retGood t d => exact h.imp id (hA _)
  | setJWT w k => exact hA _ h
  | setExp w k => exact hA _ h
  | ret w ok ob => exact fun e => (h e).imp id (hA _)
  | done r => exact h
  | _ => trivial

/-- Other goroutines may store an obtained mark. -/
theorem pcSrc_set {c : MarkConfig} {A : Time → String → Prop} {n : Time} {j k : String} (hk : A n k) {pc : RPC} (h : PCSrc c A n j pc) : PCSrc c A n k pc := by
  cases pc with
  | checkMin t => exact .inr hk
  | checkGrace t d => exact .inr hk
  | retGood t d => exact .inr hk
  | setJWT w k => exact h
  | setExp w k => exact hk
  | ret w ok ob => exact fun _ => .inr hk
  | done r => exact h
  | _ => trivial

/-- One step of a goroutine. -/
theorem rstep_src {c : MarkConfig} {A : Time → String → Prop} {cfg : RefreshConfig} {now : Time} {ans : Option String} {v v' : RefreshVars} {pc pc' : RPC} {sp : Bool}
    (h : rstep cfg now ans v pc = some (v', pc', sp)) (hans : ∀ w, pc = .obtain w → ∀ j, ans = some j → A now j) (hv : v.jwt = c.jwt ∨ A now v.jwt) (hp : PCSrc c A now v.jwt pc) :
    PCSrc c A now v'.jwt pc' ∧ (v'.jwt = v.jwt ∨ A now v'.jwt) := by
  have fin : (c.jwt ≠ "" ∨ A now v.jwt) → (c.jwt ≠ "" ∧ v.jwt = c.jwt) ∨ A now v.jwt := by
    intro h
    rcases hv with hv | hv
    · exact h.imp (fun x => ⟨x, hv⟩) id
    · exact .inr hv
  cases pc with
  | readJWT t =>
    simp only [rstep, Option.some.injEq, Prod.mk.injEq] at h
    obtain ⟨rfl, rfl, rfl⟩ := h
    refine ⟨?_, .inl rfl⟩
    by_cases hj : v.jwt = ""
    · simp [hj, PCSrc]
    · simp only [ne_eq, hj, not_false_eq_true, if_true, PCSrc]
      exact hv.imp (fun e => by rw [← e]; exact hj) id
  | checkMin t =>
    simp only [rstep, Option.some.injEq, Prod.mk.injEq] at h
    obtain ⟨rfl, rfl, rfl⟩ := h
    refine ⟨?_, .inl rfl⟩
    split
    · exact hp
    · trivial
  | checkGrace t d =>
    simp only [rstep, Option.some.injEq, Prod.mk.injEq] at h
    obtain ⟨rfl, rfl, rfl⟩ := h
    exact ⟨hp, .inl rfl⟩
  | retGood t d =>
    simp only [rstep, Option.some.injEq, Prod.mk.injEq] at h
    obtain ⟨rfl, rfl, rfl⟩ := h
    refine ⟨?_, .inl rfl⟩
    intro x hx _
    cases hx
    exact fin hp
  | checkLast w =>
    simp only [rstep, Option.some.injEq, Prod.mk.injEq] at h
    obtain ⟨rfl, rfl, rfl⟩ := h
    refine ⟨?_, .inl rfl⟩
    split
    · intro e; cases e
    · trivial
  | setLast w =>
    simp only [rstep, Option.some.injEq, Prod.mk.injEq] at h
    obtain ⟨rfl, rfl, rfl⟩ := h
    exact ⟨trivial, .inl rfl⟩
  | obtain w =>
    simp only [rstep, Option.some.injEq, Prod.mk.injEq] at h
    obtain ⟨rfl, rfl, rfl⟩ := h
    refine ⟨?_, .inl rfl⟩
    cases ans with
    | none => intro e; cases e
    | some j => exact hans w rfl j rfl
  | setJWT w k =>
    simp only [rstep, Option.some.injEq, Prod.mk.injEq] at h
    obtain ⟨rfl, rfl, rfl⟩ := h
    exact ⟨hp, .inr hp⟩
  | setExp w k =>
    simp only [rstep, Option.some.injEq, Prod.mk.injEq] at h
    obtain ⟨rfl, rfl, rfl⟩ := h
    exact ⟨fun _ => .inr hp, .inl rfl⟩
  | ret w ok ob =>
    simp only [rstep, Option.some.injEq, Prod.mk.injEq] at h
    obtain ⟨rfl, rfl, rfl⟩ := h
    refine ⟨?_, .inl rfl⟩
    intro x hx hok
    cases w with
    | none => cases hx
    | some t =>
      simp only [Option.map_some, Option.some.injEq] at hx
      subst hx
      exact fin (hp hok)
  | done r => cases h

/-- In every run every returned mark is the configured JWT or one that was obtained. -/
theorem run_src {R : JWTReader} {c : MarkConfig} {worlds : Time → MarkWorld → Prop} {cfg : RefreshConfig} {t0 : Time} {s : RSys}
    (hr : cfg.refresh = false → c.jwt ≠ "") (h : RSteps (OwnStep R c worlds cfg) (c.start t0) s) :
    t0 ≤ s.now ∧ (s.vars.jwt = c.jwt ∨ ObtainedBy R c worlds t0 s.now s.vars.jwt) ∧
      ∀ pc ∈ s.threads, PCSrc c (ObtainedBy R c worlds t0) s.now s.vars.jwt pc := by
  generalize hs0 : c.start t0 = s0 at h
  induction h with
  | refl => subst hs0; exact ⟨Int.le_refl _, .inl rfl, by intro pc hpc; cases hpc⟩
  | @step s _ _ hstep ih =>
    obtain ⟨h1, h2, h3⟩ := ih
    cases hstep with
    | tick d =>
      have hle : ∀ k, ObtainedBy R c worlds t0 s.now k → ObtainedBy R c worlds t0 ((s.now : Int) + (d : Int)) k :=
        fun k ⟨t, W, x, a1, a2, a3⟩ => ⟨t, W, x, a1, le_add_nat d a2, a3⟩
      exact ⟨le_add_nat d h1, h2.imp id (hle _), fun pc hpc => pcSrc_mono hle (h3 pc hpc)⟩
    | call =>
      refine ⟨h1, h2, fun pc hpc => ?_⟩
      rcases List.mem_append.mp hpc with hpc | hpc
      · exact h3 pc hpc
      · simp only [List.mem_singleton] at hpc
        subst hpc
        unfold RefreshConfig.entry
        cases hcr : cfg.refresh with
        | true => trivial
        | false => exact fun _ => .inl (hr hcr)
    | run i pc pc' v' sp ans hi ha hst =>
      have hpc : pc ∈ s.threads := List.mem_of_getElem? hi
      have hans : ∀ w, pc = .obtain w → ∀ j, ans = some j → ObtainedBy R c worlds t0 s.now j := by
        intro w e j hj
        obtain ⟨W, hW, hm⟩ := ha w e
        cases ho : (c.obtain R W s.now).1 with
        | error f =>
          rw [ho] at hm
          cases f
          · simp only at hm; rw [hm] at hj; cases hj
          · exact hm.elim
        | ok jx =>
          obtain ⟨j', x⟩ := jx
          rw [ho] at hm
          simp only at hm
          rw [hm] at hj
          cases hj
          exact ⟨_, W, x, h1, Int.le_refl _, hW, ho⟩
      obtain ⟨k1, k2⟩ := rstep_src hst hans h2 (h3 pc hpc)
      refine ⟨h1, ?_, fun q hq => ?_⟩
      · rcases k2 with k2 | k2
        · rw [k2]; exact h2
        · exact .inr k2
      · rcases List.mem_append.mp hq with hq | hq
        · rcases List.mem_or_eq_of_mem_set hq with hq | rfl
          · rcases k2 with k2 | k2
            · simp only [k2]; exact h3 q hq
            · exact pcSrc_set k2 (h3 q hq)
          · exact k1
        · cases sp
          · simp at hq
          · simp only [if_true, List.mem_singleton] at hq
            subst hq
            trivial

/-- **C137**, where published marks come from: in every history of calls and refreshes, overlapping or not, every mark that is returned without an error is the configured JWT or was obtained
after `Verify` and before the call returned, with one of the requests above or by the entity itself. -/
theorem C137_source (J : String → Option ConfiguredJWT) (sub endpoint : String) (sign : Option Signer) (c c' : MarkConfig)
    (h : c.verify J sub endpoint sign = (true, c')) (R : JWTReader) (worlds : Time → MarkWorld → Prop) (recorded : String → Option Time) (t0 : Time) (s : RSys)
    (hs : RSteps (OwnStep R c' worlds (c'.refresher recorded)) (c'.start t0) s) (r : CallResult) (hr : Returned s r) (hok : r.ok = true) :
    (c.jwt ≠ "" ∧ r.jwt = c.jwt) ∨ ∃ t W x, t0 ≤ t ∧ t ≤ r.finish ∧ worlds t W ∧ (c'.obtain R W t).1 = .ok (r.jwt, x) := by
  obtain ⟨_, _, _, h4, _, h6, _⟩ := verify_fields h
  have hrj : (c'.refresher recorded).refresh = false → c'.jwt ≠ "" := by
    intro e hj
    rw [h4] at hj
    have e' : c'.refresh = false := e
    rw [(h6 hj).1] at e'
    cases e'
  have := (run_src hrj hs).2.2 _ hr r rfl hok
  rw [h4] at this
  exact this

/-- The mark shows what the issuer specified. -/
theorem issuedJustNow_shows {R : JWTReader} {issuer type sub : String} {t : Time} {s : MarkSpec} {jwt : String} (h : IssuedJustNow R issuer type sub t s jwt) :
    ∃ v, viewMark R jwt = some v ∧ ShowsSpec v issuer sub s t s.lifetime ∧ s.type = type := by
  obtain ⟨I, info, rfl, h2, h3, rfl, ⟨raw, h4⟩, h5, h6, h7, h8⟩ := h
  have hS : SignsAs I.sign R (fun _ _ => true) [] "trust-mark+jwt" (I.payload s t sub []) := by
    intro jwt hj
    have e : info.jwt = jwt := by
      have h3' := h3
      unfold MarkIssuer.issue at h3'
      rw [h2] at h3'
      simp only [hj] at h3'
      cases h3'
      rfl
    rw [← e]
    exact ⟨raw, h4, rfl⟩
  obtain ⟨⟨v, hv, hs⟩, ht, _⟩ := C120_mark_partial I R (fun _ _ => true) [] t type sub [] info s h2 h3 hS h5 h6 s.lifetime (.inr ⟨rfl, rfl⟩) h7 h8
  exact ⟨v, hv, hs, ht⟩

theorem inRange_between {a b t : Int} (ha : InRange a) (hb : InRange b) (h1 : a ≤ t) (h2 : t ≤ b) : InRange t := by
  have ha' : |(a : Int)| ≤ 2 ^ 62 := ha
  have hb' : |(b : Int)| ≤ 2 ^ 62 := hb
  obtain ⟨a1, _⟩ := abs_le.mp ha'
  obtain ⟨_, b2⟩ := abs_le.mp hb'
  have : |(t : Int)| ≤ 2 ^ 62 := abs_le.mpr ⟨Int.le_trans a1 h1, Int.le_trans h2 b2⟩
  exact this

/-- What a self-issued mark is. -/
theorem obtain_self {J : String → Option ConfiguredJWT} {sub endpoint : String} {S : Signer} {c c' : MarkConfig}
    (h : c.verify J sub endpoint (some S) = (true, c')) (hj : c.jwt = "") (hself : c.selfIssued = true) {R : JWTReader} {W : MarkWorld} {t : Time} {j : String} {x : Option Time}
    (ho : (c'.obtain R W t).1 = .ok (j, x)) : ∃ info, (newMarkIssuer sub S [{ c.spec with type := c.type }]).issue t c.type sub [] = some info ∧ info.jwt = j := by
  obtain ⟨h1, _, h3, _, h5, _, _, h7⟩ := verify_fields h
  obtain ⟨e1, _⟩ := configuredAs_unique h5 (.inl ⟨hj, rfl, rfl⟩)
  unfold MarkConfig.obtain at ho
  rw [h3, hself, if_pos rfl, h7 hj hself, h1, e1] at ho
  simp only [OwnIssuer.issue, List.find?, beq_self_eq_true] at ho
  unfold newMarkIssuer
  simp only [List.reverse_cons, List.reverse_nil, List.nil_append]
  cases hi : (MarkIssuer.mk sub S [{ c.spec with type := c.type }]).issue t c.type sub [] with
  | none => rw [hi] at ho; cases ho
  | some i =>
    rw [hi] at ho
    simp only [Except.ok.injEq, Prod.mk.injEq] at ho
    exact ⟨i, rfl, ho.1⟩

/-- **C137** (part), self-issued marks: in every history every mark that is returned is one the entity has issued to itself meanwhile, of the configured type and with the claims of the
specification. Additional claims must not have names of claims of trust marks, up to case (see C120). -/
theorem C137_self_issued_partial (J : String → Option ConfiguredJWT) (sub endpoint : String) (S : Signer) (c c' : MarkConfig)
    (h : c.verify J sub endpoint (some S) = (true, c')) (hj : c.jwt = "") (hself : c.selfIssued = true) (R : JWTReader) (sig : SigOracle) (keys : List Nat)
    (worlds : Time → MarkWorld → Prop) (recorded : String → Option Time) (t0 : Time) (s : RSys)
    (hs : RSteps (OwnStep R c' worlds (c'.refresher recorded)) (c'.start t0) s) (r : CallResult) (hr : Returned s r) (hok : r.ok = true)
    (hsign : ∀ t, t0 ≤ t → t ≤ r.finish → SignsAs S R sig keys "trust-mark+jwt" ((newMarkIssuer sub S []).payload { c.spec with type := c.type } t sub []))
    (hw : c.spec.extra.WF) (hx : ∀ k ∈ c.spec.extra.keys, ∀ t ∈ markTags, Apart t k)
    (ht0 : InRange t0) (ht1 : InRange r.finish) (hl0 : InRange (t0 + c.spec.lifetime)) (hl1 : InRange (r.finish + c.spec.lifetime)) :
    ∃ t v, t0 ≤ t ∧ t ≤ r.finish ∧ viewMark R r.jwt = some v ∧ ShowsSpec v sub sub { c.spec with type := c.type } t c.spec.lifetime := by
  rcases C137_source J sub endpoint (some S) c c' h R worlds recorded t0 s hs r hr hok with hc | ⟨t, W, x, h1, h2, _, ho⟩
  · exact absurd hj hc.1
  obtain ⟨info, hi, hij⟩ := obtain_self h hj hself ho
  obtain ⟨⟨v, hv, hsh⟩, _⟩ := C120_mark_partial _ R sig keys t c.type sub [] info { c.spec with type := c.type } (by simp [newMarkIssuer, MarkIssuer.spec]) hi (hsign t h1 h2) hw hx
    c.spec.lifetime (.inr ⟨rfl, rfl⟩) (inRange_between ht0 ht1 h1 h2)
    (inRange_between (t := (t : Int) + c.spec.lifetime) hl0 hl1 (Int.add_le_add_right h1 _) (Int.add_le_add_right h2 _))
  rw [hij] at hv
  exact ⟨t, v, h1, h2, hv, hsh⟩

/-- What is obtained from others. -/
theorem obtain_remote {J : String → Option ConfiguredJWT} {sub endpoint : String} {sign : Option Signer} {c c' : MarkConfig}
    (h : c.verify J sub endpoint sign = (true, c')) (hself : c.selfIssued = false) {type issuer : String} (hc : ConfiguredAs J c type issuer) {R : JWTReader} {W : MarkWorld} {t : Time}
    {j : String} {x : Option Time} (ho : (c'.obtain R W t).1 = .ok (j, x)) :
    ∃ e a, EndpointFor W sub endpoint issuer e ∧ W.get e type sub = some a ∧ ¬ (400 ≤ a.status ∧ a.err ≠ "") ∧ a.body = j ∧ ∃ m, parseMark R j = some m := by
  obtain ⟨h1, h2, h3, _, h5, _⟩ := verify_fields h
  obtain ⟨rfl, rfl⟩ := configuredAs_unique hc h5
  have ask : ∀ ep : String, (match httpBody (W.get ep c'.type sub) with
      | none => (.error .error : Res (String × Option Time))
      | some body =>
        match parseMark R body with
        | none => .error .error
        | some m => .ok (body, m.exp)) = .ok (j, x) →
      ∃ a, W.get ep c'.type sub = some a ∧ ¬ (400 ≤ a.status ∧ a.err ≠ "") ∧ a.body = j ∧ ∃ m, parseMark R j = some m := by
    intro ep hh
    cases hg : W.get ep c'.type sub with
    | none => rw [hg] at hh; cases hh
    | some a =>
      rw [hg] at hh
      simp only [httpBody] at hh
      by_cases hb : 400 ≤ a.status ∧ a.err ≠ ""
      · rw [if_pos hb] at hh; cases hh
      · rw [if_neg hb] at hh
        simp only at hh
        cases hp : parseMark R a.body with
        | none => rw [hp] at hh; cases hh
        | some m =>
          rw [hp] at hh
          simp only [Except.ok.injEq, Prod.mk.injEq] at hh
          obtain ⟨rfl, _⟩ := hh
          exact ⟨a, rfl, hb, rfl, m, hp⟩
  unfold MarkConfig.obtain at ho
  rw [h3, hself, h1, h2] at ho
  simp only [Bool.false_eq_true, if_false] at ho
  by_cases he : c'.issuer = sub
  · rw [if_pos he] at ho
    obtain ⟨a, ha⟩ := ask _ ho
    exact ⟨_, a, .inl ⟨he, rfl⟩, ha⟩
  · rw [if_neg he] at ho
    cases hw : W.endpoint c'.issuer with
    | none => rw [hw] at ho; cases ho
    | some ep =>
      simp only [hw] at ho
      by_cases hep : ep = ""
      · rw [if_pos hep] at ho; cases ho
      · rw [if_neg hep] at ho
        obtain ⟨a, ha⟩ := ask _ ho
        exact ⟨_, a, .inr ⟨he, hw, hep⟩, ha⟩

/-- **C137** (part), marks of others: if the configured issuer answers requests for the type and the entity only with marks it issues for them with this library, then in every history every
mark that is returned and is not the configured JWT is of the configured type, from the configured issuer and about the entity. It is missing that this holds whatever the issuer answers, which is
false (below). -/
theorem C137_issuer_partial (J : String → Option ConfiguredJWT) (sub endpoint : String) (sign : Option Signer) (c c' : MarkConfig)
    (h : c.verify J sub endpoint sign = (true, c')) (hself : c.selfIssued = false) (type issuer : String) (hc : ConfiguredAs J c type issuer) (R : JWTReader)
    (worlds : Time → MarkWorld → Prop) (hh : HonestIssuer R worlds endpoint issuer type sub) (recorded : String → Option Time) (t0 : Time) (s : RSys)
    (hs : RSteps (OwnStep R c' worlds (c'.refresher recorded)) (c'.start t0) s) (r : CallResult) (hr : Returned s r) (hok : r.ok = true) (hne : r.jwt ≠ c.jwt) :
    ∃ t v sp, t0 ≤ t ∧ t ≤ r.finish ∧ viewMark R r.jwt = some v ∧ ShowsSpec v issuer sub sp t sp.lifetime ∧ v.type = type := by
  rcases C137_source J sub endpoint sign c c' h R worlds recorded t0 s hs r hr hok with hcj | ⟨t, W, x, h1, h2, hW, ho⟩
  · exact absurd hcj.2 hne
  obtain ⟨e, a, he, ha, hb, haj, _⟩ := obtain_remote h hself hc ho
  rcases hh t W e hW he a ha with hbad | ⟨sp, hi⟩
  · exact absurd hbad hb
  rw [haj] at hi
  obtain ⟨v, hv, hsh, hty⟩ := issuedJustNow_shows hi
  exact ⟨t, v, sp, h1, h2, hv, hsh, by rw [hsh.2.2.1, hty]⟩

/-- **C137**, whatever the issuer answers: everything that is returned, but the configured JWT, is at least a trust mark JWT that this issuer's endpoint served for the configured type and
the entity. -/
theorem C137_served (J : String → Option ConfiguredJWT) (sub endpoint : String) (sign : Option Signer) (c c' : MarkConfig)
    (h : c.verify J sub endpoint sign = (true, c')) (hself : c.selfIssued = false) (type issuer : String) (hc : ConfiguredAs J c type issuer) (R : JWTReader)
    (worlds : Time → MarkWorld → Prop) (recorded : String → Option Time) (t0 : Time) (s : RSys)
    (hs : RSteps (OwnStep R c' worlds (c'.refresher recorded)) (c'.start t0) s) (r : CallResult) (hr : Returned s r) (hok : r.ok = true) (hne : r.jwt ≠ c.jwt) :
    ∃ t W e a m, t0 ≤ t ∧ t ≤ r.finish ∧ worlds t W ∧ EndpointFor W sub endpoint issuer e ∧ W.get e type sub = some a ∧ a.body = r.jwt ∧ parseMark R r.jwt = some m := by
  rcases C137_source J sub endpoint sign c c' h R worlds recorded t0 s hs r hr hok with hcj | ⟨t, W, x, h1, h2, hW, ho⟩
  · exact absurd hcj.2 hne
  obtain ⟨e, a, he, ha, _, haj, m, hm⟩ := obtain_remote h hself hc ho
  exact ⟨t, W, e, a, m, h1, h2, hW, he, ha, haj, hm⟩

/-- **C137**, a configured JWT that is not to be refreshed is what every call returns, always without error. -/
theorem C137_configured (J : String → Option ConfiguredJWT) (sub endpoint : String) (sign : Option Signer) (c c' : MarkConfig)
    (h : c.verify J sub endpoint sign = (true, c')) (hj : c.jwt ≠ "") (hn : c.refresh = false) (R : JWTReader) (worlds : Time → MarkWorld → Prop)
    (recorded : String → Option Time) (t0 : Time) (s : RSys) (hs : RSteps (OwnStep R c' worlds (c'.refresher recorded)) (c'.start t0) s) (r : CallResult) (hr : Returned s r) :
    r.ok = true ∧ r.jwt = c.jwt := by
  obtain ⟨_, _, _, h4, _, _, h6, _⟩ := verify_fields h
  have hf : (c'.refresher recorded).refresh = false := by
    show c'.refresh = false
    rw [(h6 hj).1]; exact hn
  have inv : s.vars.jwt = c.jwt ∧ ∀ pc ∈ s.threads, (∃ t, pc = .ret (some t) true none) ∨ ∃ x : CallResult, pc = .done (some x) ∧ x.ok = true ∧ x.jwt = c.jwt := by
    clear hr
    generalize hs0 : c'.start t0 = s0 at hs
    induction hs with
    | refl => subst hs0; exact ⟨h4, by intro pc hpc; cases hpc⟩
    | @step s _ _ hstep ih =>
      obtain ⟨k1, k2⟩ := ih
      cases hstep with
      | tick d => exact ⟨k1, k2⟩
      | call =>
        refine ⟨k1, fun pc hpc => ?_⟩
        rcases List.mem_append.mp hpc with hpc | hpc
        · exact k2 pc hpc
        · simp only [List.mem_singleton] at hpc
          subst hpc
          unfold RefreshConfig.entry
          rw [hf]
          exact .inl ⟨_, rfl⟩
      | run i pc pc' v' sp ans hi ha hst =>
        have hpc : pc ∈ s.threads := List.mem_of_getElem? hi
        rcases k2 pc hpc with ⟨t, rfl⟩ | ⟨x, rfl, _⟩
        · simp only [rstep, Option.some.injEq, Prod.mk.injEq] at hst
          obtain ⟨rfl, rfl, rfl⟩ := hst
          refine ⟨k1, fun q hq => ?_⟩
          simp only [Bool.false_eq_true, if_false, List.append_nil] at hq
          rcases List.mem_or_eq_of_mem_set hq with hq | rfl
          · exact k2 q hq
          · exact .inr ⟨_, rfl, rfl, k1⟩
        · cases hst
  rcases inv.2 _ hr with ⟨_, e⟩ | ⟨x, e, hx⟩
  · cases e
  · cases e
    exact hx

/-! ## Examples and counterexamples -/

namespace ExOM

/-- Executes a list of moves at one moment: runs the goroutine with this number, a new one being a new call. -/
def ownExec (cfg : RefreshConfig) (ans : Option String) (s : RSys) : List Nat → RSys
  | [] => s
  | i :: ms =>
    match s.threads[i]? with
    | none => ownExec cfg ans { s with threads := s.threads ++ [cfg.entry s.now] } ms
    | some pc =>
      match rstep cfg s.now ans s.vars pc with
      | none => ownExec cfg ans s ms
      | some (v', pc', sp) =>
        ownExec cfg ans { s with vars := v', threads := s.threads.set i pc' ++ (if sp then [.checkLast none] else []), attempts := pc.attempt s.now ++ s.attempts } ms

theorem ownExec_steps {R : JWTReader} {c : MarkConfig} {worlds : Time → MarkWorld → Prop} {cfg : RefreshConfig} {ans : Option String} (ms : List Nat) (s0 s : RSys)
    (ha : c.Obtains R worlds s.now ans) (h : RSteps (OwnStep R c worlds cfg) s0 s) : RSteps (OwnStep R c worlds cfg) s0 (ownExec cfg ans s ms) := by
  induction ms generalizing s with
  | nil => exact h
  | cons i ms ih =>
    simp only [ownExec]
    cases hi : s.threads[i]? with
    | none => exact ih _ ha (.step h (.call s))
    | some pc =>
      simp only
      cases hr : rstep cfg s.now ans s.vars pc with
      | none => exact ih _ ha h
      | some r =>
        obtain ⟨v', pc', sp⟩ := r
        exact ih _ ha (.step h (.run s i pc pc' v' sp ans hi (fun _ _ => ha) hr))

/-- A self-issued mark. -/
def selfC : MarkConfig := ⟨"tm", "", true, { ExMJ.spec with type := "" }, "", false, 0, 0, Time.zero, "", "", none⟩

/-- After `Verify`. -/
def selfC' : MarkConfig := (selfC.verify (fun _ => none) "https://leaf" "" (some Ex.signer)).2

/-- Reads the mark that the entity issues to itself at `t0`. -/
def selfReader : JWTReader := fun j =>
  if j = "m" then some ⟨"trust-mark+jwt", (newMarkIssuer "https://leaf" Ex.signer []).payload { ExMJ.spec with type := "tm" } Ex.t0 "https://leaf" [], 7⟩ else none

/-- A mark to be asked for at another entity. -/
def remoteC : MarkConfig := ⟨"tm", "https://tmi", false, ⟨"", 0, "", "", [], false, ""⟩, "", false, 0, 0, Time.zero, "", "", none⟩

/-- After `Verify`. -/
def remoteC' : MarkConfig := (remoteC.verify (fun _ => none) "https://leaf" "" none).2

/-- The issuer has an endpoint, which answers with `body`. -/
def world (body : String) : MarkWorld := ⟨fun i => if i = "https://tmi" then some "https://tmi/tm" else none, fun _ _ _ => some ⟨200, "", body⟩⟩

/-- Only this world, at `t0`. -/
def only (W : MarkWorld) : Time → MarkWorld → Prop := fun t W' => t = Ex.t0 ∧ W' = W

/-- Reads `x` as a mark of another type for another subject, and the marks of `ExMJ.issuer`. -/
def reader : JWTReader := fun j =>
  if j = "x" then some ⟨"trust-mark+jwt", [("iss", .str "https://tmi"), ("sub", .str "https://other"), ("trust_mark_type", .str "other"), ("iat", .num 1)], 3⟩
  else ExMJ.reader j

/-- A self-issued mark for which there is also a JWT, to be refreshed. -/
def bothC : MarkConfig := { selfC with jwt := "j", refresh := true }

/-- `jwt.Parse` of that JWT: expired long ago. -/
def bothJ : String → Option ConfiguredJWT := fun _ => some ⟨some 0, some "https://leaf", some "tm"⟩

end ExOM
open ExOM

/-- The hypotheses of `C137_self_issued_partial` are met: two calls that overlap, one of which obtains the mark and returns it. -/
example : ∃ (s : RSys) (r : CallResult) (t : Time) (v : MarkView), RSteps (OwnStep selfReader selfC' (only (world "")) (selfC'.refresher (fun _ => none))) (selfC'.start Ex.t0) s ∧
    Returned s r ∧ r.ok = true ∧ r.jwt = "m" ∧ viewMark selfReader r.jwt = some v ∧ v.type = "tm" ∧ v.sub = "https://leaf" ∧ v.iss = "https://leaf" ∧ v.logo = "https://logo" ∧
    Near v.iat t := by
  have hobt : selfC'.Obtains selfReader (only (world "")) Ex.t0 (some "m") := ⟨world "", ⟨rfl, rfl⟩, rfl⟩
  have hs := ownExec_steps (cfg := selfC'.refresher (fun _ => none)) [0, 1, 0, 0, 1, 0, 0, 0, 1, 0, 0, 0] (selfC'.start Ex.t0) (selfC'.start Ex.t0) hobt (.refl _)
  let r : CallResult := ⟨Ex.t0, Ex.t0, "m", true, some "m"⟩
  have hr : Returned (ownExec (selfC'.refresher (fun _ => none)) (some "m") (selfC'.start Ex.t0) [0, 1, 0, 0, 1, 0, 0, 0, 1, 0, 0, 0]) r := List.mem_of_getElem? (i := 0) rfl
  obtain ⟨t, v, _, _, hv, h1, h2, h3, h4, _, _, _, h8, _⟩ := C137_self_issued_partial (fun _ => none) "https://leaf" "" Ex.signer selfC selfC' rfl rfl rfl selfReader Ex.sig [7] _ _ Ex.t0 _
    hs r hr rfl (by
      intro t ht1 ht2 jwt hj
      have e : t = Ex.t0 := Int.le_antisymm ht2 ht1
      subst e
      cases hj
      exact ⟨7, rfl, rfl⟩) (by simp [AMap.WF, AMap.keys, selfC, ExMJ.spec]) (by simp only [selfC, ExMJ.spec, AMap.keys, Apart]; decide) (by unfold InRange; decide)
    (by unfold InRange; decide) (by unfold InRange; decide) (by unfold InRange; decide)
  exact ⟨_, r, t, v, hs, hr, rfl, rfl, hv, h3, h2, h1, h4, h8⟩

/-- The hypotheses of `C137_issuer_partial` are met, with an issuer that issues the mark when asked. -/
example : ∃ (s : RSys) (r : CallResult) (v : MarkView), RSteps (OwnStep reader remoteC' (only (world "m")) (remoteC'.refresher (fun _ => none))) (remoteC'.start Ex.t0) s ∧
    Returned s r ∧ r.ok = true ∧ viewMark reader r.jwt = some v ∧ v.type = "tm" ∧ v.sub = "https://leaf" ∧ v.iss = "https://tmi" := by
  have hobt : remoteC'.Obtains reader (only (world "m")) Ex.t0 (some "m") := ⟨world "m", ⟨rfl, rfl⟩, rfl⟩
  have hs := ownExec_steps (cfg := remoteC'.refresher (fun _ => none)) [0, 0, 0, 0, 0, 0, 0, 0] (remoteC'.start Ex.t0) (remoteC'.start Ex.t0) hobt (.refl _)
  let r : CallResult := ⟨Ex.t0, Ex.t0, "m", true, some "m"⟩
  have hr : Returned (ownExec (remoteC'.refresher (fun _ => none)) (some "m") (remoteC'.start Ex.t0) [0, 0, 0, 0, 0, 0, 0, 0]) r := List.mem_of_getElem? (i := 0) rfl
  have hh : HonestIssuer reader (only (world "m")) "" "https://tmi" "tm" "https://leaf" := by
    rintro t W e ⟨rfl, rfl⟩ _ a ha
    cases ha
    exact .inr ⟨ExMJ.spec, ExMJ.issuer, _, rfl, rfl, rfl, rfl, ⟨7, rfl⟩, by simp [AMap.WF, AMap.keys, ExMJ.spec], by simp only [ExMJ.spec, AMap.keys, Apart]; decide,
      by unfold InRange; decide, by unfold InRange; decide⟩
  obtain ⟨t, v, sp, _, _, hv, hsh, hty⟩ := C137_issuer_partial (fun _ => none) "https://leaf" "" none remoteC remoteC' rfl rfl "tm" "https://tmi" (.inl ⟨rfl, rfl, rfl⟩) reader
    _ hh _ Ex.t0 _ hs r hr rfl (by decide)
  exact ⟨_, r, v, hs, hr, rfl, hv, hty, hsh.2.1, hsh.1⟩

/-- The three kinds of acceptable configurations, and one that is refused. -/
example : Acceptable (fun _ => none) selfC ∧ Acceptable (fun _ => none) remoteC ∧ Acceptable bothJ bothC ∧ ¬ Acceptable (fun _ => none) { remoteC with issuer := "" } := by
  refine ⟨.inr ⟨rfl, by decide, .inl rfl⟩, .inr ⟨rfl, by decide, .inr (by decide)⟩, .inl ⟨by decide, _, _, rfl, rfl⟩, ?_⟩
  rw [← C137_accepted _ "" "" none]
  decide

/-- The hypotheses of `C137_no_panic_partial` are met. -/
example : (selfC'.obtain selfReader (world "") Ex.t0).1 ≠ .error .panic :=
  C137_no_panic_partial (fun _ => none) "https://leaf" "" (some Ex.signer) selfC selfC' rfl (fun _ => ⟨rfl, by simp⟩) _ _ _

/-- `C137_requests` for this configuration: the configuration of the issuer, then the mark at its endpoint. -/
example : (remoteC'.obtain reader (world "m") Ex.t0).2 = [.config "https://tmi", .mark "https://tmi/tm" "tm" "https://leaf"] := rfl

/-- The hypotheses of `C137_configured` are met. -/
example : ∃ (c' : MarkConfig) (s : RSys) (r : CallResult), MarkConfig.verify bothJ "https://leaf" "" none { bothC with refresh := false } = (true, c') ∧
    RSteps (OwnStep reader c' (only (world "")) (c'.refresher (fun _ => none))) (c'.start Ex.t0) s ∧ Returned s r ∧ r.ok = true ∧ r.jwt = "j" ∧ c'.type = "tm" := by
  let c' := (MarkConfig.verify bothJ "https://leaf" "" none { bothC with refresh := false }).2
  have hs : RSteps (OwnStep reader c' (only (world "")) (c'.refresher (fun _ => none))) (c'.start Ex.t0)
      ⟨Ex.t0, ⟨"j", 0, Time.zero⟩, [.done (some ⟨Ex.t0, Ex.t0, "j", true, none⟩)], []⟩ :=
    .step (.step (.refl _) (.call _)) (.run _ 0 (.ret (some Ex.t0) true none) _ _ false none rfl (fun w e => by cases e) rfl)
  exact ⟨c', _, _, rfl, hs, List.mem_cons_self, C137_configured bothJ "https://leaf" "" none { bothC with refresh := false } c' rfl (by decide) rfl reader _ _ Ex.t0 _ hs _
    List.mem_cons_self |>.1, rfl, rfl⟩

/-- The lifetimes that were configured are kept; a minimum of ten seconds and a grace period of an hour if none are configured. -/
theorem C137_periods (J : String → Option ConfiguredJWT) (sub endpoint : String) (sign : Option Signer) (c c' : MarkConfig) (b : Bool)
    (h : c.verify J sub endpoint sign = (b, c')) :
    (c.minLifetime ≠ 0 → c'.minLifetime = c.minLifetime) ∧ (c.minLifetime = 0 → c'.minLifetime = 10 * second) ∧
    (c.grace ≠ 0 → c'.grace = c.grace) ∧ (c.grace = 0 → c'.grace = 3600 * second) := by
  have key : c'.minLifetime = (if c.minLifetime = 0 then 10 * second else c.minLifetime) ∧ c'.grace = (if c.grace = 0 then 3600 * second else c.grace) := by
    unfold MarkConfig.verify at h
    dsimp only at h
    repeat' split at h
    all_goals (simp only [Prod.mk.injEq] at h; rw [← h.2]; simp_all)
  rw [key.1, key.2]
  exact ⟨fun h => if_neg h, fun h => if_pos h, fun h => if_neg h, fun h => if_pos h⟩

/-- **C137** (part): as long as calls and background refreshes do not overlap, every mark that is returned without error was obtained in the call, or is valid for longer than the
configured minimum, ten seconds if none is configured. Missing: overlapping calls (C43). -/
theorem C137_lifetime_partial (J : String → Option ConfiguredJWT) (sub endpoint : String) (sign : Option Signer) (c c' : MarkConfig)
    (h : c.verify J sub endpoint sign = (true, c')) (hrf : c.jwt = "" ∨ c.refresh = true) (hx : c.expiration = Time.zero) (hm : 0 ≤ c.minLifetime)
    (recorded : String → Option Time) (hrec : ∀ p, J c.jwt = some p → recorded c.jwt = p.exp) (t0 : Time) (ht : Time.zero ≤ t0) (s : RSys)
    (hs : RSteps (RSys.SeqStep (c'.refresher recorded)) (c'.start t0) s) (r : CallResult) (hr : Returned s r) (hok : r.ok = true) :
    r.obtained = some r.jwt ∨ ∃ t e : Time, r.start ≤ t ∧ t ≤ r.finish ∧ recorded r.jwt = some e ∧
      (e - t : Int) > (if c.minLifetime = 0 then 10 * second else c.minLifetime) := by
  obtain ⟨_, _, _, h4, _, h5, h6, _⟩ := verify_fields h
  obtain ⟨k1, k2, _, _⟩ := C137_periods J sub endpoint sign c c' true h
  have hmin : c'.minLifetime = (if c.minLifetime = 0 then 10 * second else c.minLifetime) := by
    by_cases h0 : c.minLifetime = 0
    · rw [if_pos h0]; exact k2 h0
    · rw [if_neg h0]; exact k1 h0
  have hstart : c'.start t0 = RSys.init (c'.refresher recorded) t0 c'.jwt := by
    unfold MarkConfig.start RSys.init MarkConfig.refresher
    dsimp only
    by_cases hj : c.jwt = ""
    · rw [h4, if_pos hj, (h5 hj).2, hx]
    · rw [h4, if_neg hj]
      have : c'.expiration = (recorded c.jwt).getD Time.zero := by
        unfold MarkConfig.verify at h
        simp only [hj, ne_eq, not_false_eq_true, if_true] at h
        cases hp : J c.jwt with
        | none => rw [hp] at h; cases h
        | some p =>
          simp only [hp] at h
          rw [hrec p hp]
          cases ht : p.type with
          | none => rw [ht] at h; cases h
          | some t =>
            simp only [ht, Prod.mk.injEq, true_and] at h
            rw [← h]
      rw [this]
  rw [hstart] at hs
  have hre : (c'.refresher recorded).refresh = true := by
    show c'.refresh = true
    by_cases hj : c.jwt = ""
    · exact (h5 hj).1
    · rw [(h6 hj).1]
      rcases hrf with h | h
      · exact absurd h hj
      · exact h
  have hm' : 0 ≤ (c'.refresher recorded).minLifetime := by
    show 0 ≤ c'.minLifetime
    rw [hmin]
    split
    · decide
    · exact hm
  have := C43_fresh_partial (c'.refresher recorded) t0 c'.jwt ht hre hm' s hs r hr hok
  unfold FreshEnough at this
  rw [show (c'.refresher recorded).minLifetime = c'.minLifetime from rfl, hmin] at this
  exact this

namespace ExOM

/-- A mark to be asked for, of which a minute has to be left. -/
def minuteC : MarkConfig := { remoteC with minLifetime := 60 * second }

/-- After `Verify`. -/
def minuteC' : MarkConfig := (minuteC.verify (fun _ => none) "https://leaf" "" none).2

/-- "a" expires after 100 s, "b" later. -/
def minuteExp : String → Option Time := fun j => if j = "a" then some (100 * second) else some (10000 * second)

/-- A call that obtains "a" at time 0, one after 30 s that returns it again, and one after 60 s that obtains "b". -/
def minuteRun : RSys :=
  Ex.rexecSeq (minuteC'.refresher minuteExp) (minuteC'.start 0)
    (Ex.whole 0 (some "a") ++ List.replicate 3 none ++ Ex.whole 1 (some "b") ++ List.replicate 3 none ++ Ex.whole 3 (some "b"))

end ExOM

/-- The hypotheses of `C137_lifetime_partial` are met, by calls that obtain a mark and by one that returns it again. -/
example : minuteC.verify (fun _ => none) "https://leaf" "" none = (true, minuteC') ∧ minuteC.jwt = "" ∧ minuteC.expiration = Time.zero ∧
    RSteps (RSys.SeqStep (minuteC'.refresher minuteExp)) (minuteC'.start 0) minuteRun ∧
    Returned minuteRun ⟨0, 0, "a", true, some "a"⟩ ∧ Returned minuteRun ⟨30 * second, 30 * second, "a", true, none⟩ ∧
    Returned minuteRun ⟨60 * second, 60 * second, "b", true, some "b"⟩ :=
  ⟨rfl, rfl, rfl, Ex.rexecSeq_steps _ _ _ _ (.refl _), List.mem_iff_getElem?.mpr ⟨0, rfl⟩, List.mem_iff_getElem?.mpr ⟨1, rfl⟩, List.mem_iff_getElem?.mpr ⟨3, rfl⟩⟩

/-- **C137 fails** if the issuer answers with some other mark: that is not noticed, and a mark of another type for another entity is published under the configured type. -/
theorem C137_other_mark_refuted : ∃ (c c' : MarkConfig) (R : JWTReader) (worlds : Time → MarkWorld → Prop) (s : RSys) (r : CallResult) (m : Mark),
    c.verify (fun _ => none) "https://leaf" "" none = (true, c') ∧
    RSteps (OwnStep R c' worlds (c'.refresher (fun _ => none))) (c'.start Ex.t0) s ∧ Returned s r ∧ r.ok = true ∧
    parseMark R r.jwt = some m ∧ m.type ≠ c.type ∧ m.sub ≠ "https://leaf" := by
  have hobt : remoteC'.Obtains reader (only (world "x")) Ex.t0 (some "x") := ⟨world "x", ⟨rfl, rfl⟩, rfl⟩
  have hs := ownExec_steps (cfg := remoteC'.refresher (fun _ => none)) [0, 0, 0, 0, 0, 0, 0, 0] (remoteC'.start Ex.t0) (remoteC'.start Ex.t0) hobt (.refl _)
  exact ⟨remoteC, remoteC', reader, _, _, ⟨Ex.t0, Ex.t0, "x", true, some "x"⟩, _, rfl, hs, List.mem_of_getElem? (i := 0) rfl, rfl, rfl, by decide, by decide⟩

/-- **C137 fails**: a configuration that has a JWT and is self-issued is accepted, but there is nothing to issue new marks with. As soon as the JWT has to be refreshed, obtaining a new one panics,
whatever others answer. -/
theorem C137_panic_refuted : ∃ (J : String → Option ConfiguredJWT) (c c' : MarkConfig) (R : JWTReader) (s : RSys) (w : Option Time),
    c.verify J "https://leaf" "" (some Ex.signer) = (true, c') ∧
    RSteps (OwnStep R c' (fun _ _ => True) (c'.refresher (fun _ => none))) (c'.start Ex.t0) s ∧ RPC.obtain w ∈ s.threads ∧ ∀ W, (c'.obtain R W s.now).1 = .error .panic := by
  refine ⟨bothJ, bothC, (bothC.verify bothJ "https://leaf" "" (some Ex.signer)).2, reader,
    ⟨Ex.t0, ⟨"j", 0, Ex.t0⟩, [.obtain (some Ex.t0)], [Ex.t0]⟩, some Ex.t0, rfl, ?_, List.mem_cons_self, fun W => rfl⟩
  refine .step (t := ⟨Ex.t0, ⟨"j", 0, Time.zero⟩, [.setLast (some Ex.t0)], []⟩) ?_ (.run _ 0 (.setLast (some Ex.t0)) _ _ false none rfl (fun w e => by cases e) rfl)
  refine .step (t := ⟨Ex.t0, ⟨"j", 0, Time.zero⟩, [.checkLast (some Ex.t0)], []⟩) ?_ (.run _ 0 (.checkLast (some Ex.t0)) _ _ false none rfl (fun w e => by cases e) rfl)
  refine .step (t := ⟨Ex.t0, ⟨"j", 0, Time.zero⟩, [.checkMin Ex.t0], []⟩) ?_ (.run _ 0 (.checkMin Ex.t0) _ _ false none rfl (fun w e => by cases e) rfl)
  refine .step (t := ⟨Ex.t0, ⟨"j", 0, Time.zero⟩, [.readJWT Ex.t0], []⟩) ?_ (.run _ 0 (.readJWT Ex.t0) _ _ false none rfl (fun w e => by cases e) rfl)
  exact .step (.refl _) (.call _)

end Oidfed
