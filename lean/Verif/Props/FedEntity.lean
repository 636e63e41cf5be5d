import Verif.Lemmas.AuthCode
import Verif.Spec.FedEntity
/-!
# C44: the published entity configuration
-/

namespace Oidfed
open Spec

/-- The uninterrupted call is what the interleaved model does when nothing interferes. -/
theorem trustMarkJWT_returns (m : OwnMark) (now : Time) (ans : Option String) :
    ∃ r, Returns m now ans r (trustMarkJWT m.cfg now ans m.vars).2 ∧
      ((trustMarkJWT m.cfg now ans m.vars).1 = if r.ok then some r.jwt else none) := by
  obtain ⟨type, cfg, v⟩ := m
  unfold Returns
  simp only
  cases hr : cfg.refresh with
  | false =>
    refine ⟨⟨now, now, v.jwt, true, none⟩, ?_, ?_⟩
    · simp only [RefreshConfig.entry, trustMarkJWT, hr]
      exact .step rfl (.refl _ _)
    · simp [trustMarkJWT, hr]
  | true =>
    simp only [RefreshConfig.entry, hr, if_true]
    by_cases hg : v.jwt ≠ "" ∧ untilT now v.exp > cfg.minLifetime
    · refine ⟨⟨now, now, v.jwt, true, none⟩, ?_, ?_⟩
      · have e : (trustMarkJWT cfg now ans v).2 = v := by simp [trustMarkJWT, hr, hg]
        rw [e]
        refine .step (v1 := v) (pc1 := .checkMin now) (spawn := false) (by simp [rstep, hg.1]) ?_
        refine .step (v1 := v) (pc1 := .checkGrace now now) (spawn := false) (by simp [rstep, hg.2]) ?_
        exact .step rfl (.step rfl (.refl _ _))
      · simp [trustMarkJWT, hr, hg]
    · -- on to the refresh
      have toRefresh : ∀ {v2 pc2}, SoloRun cfg now ans v (.checkLast (some now)) v2 pc2 →
          SoloRun cfg now ans v (.readJWT now) v2 pc2 := by
        intro v2 pc2 h
        by_cases hj : v.jwt = ""
        · exact .step (v1 := v) (pc1 := .checkLast (some now)) (spawn := false) (by simp [rstep, hj]) h
        · refine .step (v1 := v) (pc1 := .checkMin now) (spawn := false) (by simp [rstep, hj]) ?_
          have hm : ¬ untilT now v.exp > cfg.minLifetime := fun hm => hg ⟨hj, hm⟩
          exact .step (v1 := v) (pc1 := .checkLast (some now)) (spawn := false) (by simp only [rstep, if_neg hm]) h
      have e : trustMarkJWT cfg now ans v = (if (refreshNow cfg now ans v).1 then some (refreshNow cfg now ans v).2.jwt else none,
          (refreshNow cfg now ans v).2) := by
        simp only [trustMarkJWT, hr, if_neg hg]
        rfl
      rw [e]
      by_cases hl : durSub now v.last < minute
      · refine ⟨⟨now, now, v.jwt, false, none⟩, toRefresh ?_, ?_⟩
        · have e2 : (refreshNow cfg now ans v).2 = v := by simp [refreshNow, hl]
          rw [e2]
          exact .step (v1 := v) (pc1 := .ret (some now) false none) (spawn := false) (by simp [rstep, hl]) (.step rfl (.refl _ _))
        · simp [refreshNow, hl]
      · cases ans with
        | none =>
          refine ⟨⟨now, now, v.jwt, false, none⟩, toRefresh ?_, ?_⟩
          · have e2 : (refreshNow cfg now none v).2 = { v with last := now } := by simp [refreshNow, hl]
            rw [e2]
            refine .step (v1 := v) (pc1 := .setLast (some now)) (spawn := false) (by simp [rstep, hl]) ?_
            exact .step rfl (.step rfl (.step rfl (.refl _ _)))
          · simp [refreshNow, hl]
        | some j =>
          refine ⟨⟨now, now, j, true, some j⟩, toRefresh ?_, ?_⟩
          · have e2 : (refreshNow cfg now (some j) v).2 = ⟨j, (cfg.recorded j).getD Time.zero, now⟩ := by simp [refreshNow, hl]
            rw [e2]
            refine .step (v1 := v) (pc1 := .setLast (some now)) (spawn := false) (by simp [rstep, hl]) ?_
            exact .step rfl (.step rfl (.step rfl (.step rfl (.step rfl (.refl _ _)))))
          · simp [refreshNow, hl]

theorem publishedMarks_exact (now : Time) (ans : Nat → Option String) : ∀ (ms : List OwnMark) (n : Nat),
    ExactlyProvided now ans n ms (publishedMarks now ans n ms) := by
  intro ms
  induction ms with
  | nil => intro n; exact .nil n
  | cons m ms ih =>
    intro n
    obtain ⟨r, h1, h2⟩ := trustMarkJWT_returns m now (ans n)
    simp only [publishedMarks]
    cases hok : r.ok with
    | true =>
      rw [h2, hok]
      exact .take ⟨r, _, h1, hok, rfl⟩ (ih (n+1))
    | false =>
      rw [h2, hok]
      exact .skip ⟨r, _, h1, hok⟩ (ih (n+1))

theorem soloRun_done {cfg : RefreshConfig} {now : Time} {ans : Option String} {v v1 v2 : RefreshVars} {pc : RPC} {r1 r2 : Option CallResult}
    (h1 : SoloRun cfg now ans v pc v1 (.done r1)) (h2 : SoloRun cfg now ans v pc v2 (.done r2)) : r1 = r2 := by
  generalize hd : RPC.done r1 = d at h1
  induction h1 with
  | refl =>
    subst hd
    cases h2 with
    | refl => rfl
    | step h _ => cases h
  | step h _ ih =>
    cases h2 with
    | refl => cases h
    | step h' h2 =>
      rw [h] at h'
      cases h'
      exact ih h2 hd

/-- The specification determines the list. -/
theorem exactlyProvided_unique {now : Time} {ans : Nat → Option String} : ∀ {ms : List OwnMark} {n : Nat} {a b : List (String × String)},
    ExactlyProvided now ans n ms a → ExactlyProvided now ans n ms b → a = b := by
  intro ms n a b ha
  induction ha generalizing b with
  | nil => intro hb; cases hb; rfl
  | take hp _ ih =>
    intro hb
    obtain ⟨r, v, h1, h2, h3⟩ := hp
    cases hb with
    | take hp' hb =>
      obtain ⟨r', v', h1', h2', h3'⟩ := hp'
      have e := soloRun_done h1 h1'
      cases e
      rw [ih hb, ← h3, ← h3']
    | skip hp' hb =>
      obtain ⟨r', v', h1', h2'⟩ := hp'
      have e := soloRun_done h1 h1'
      cases e
      rw [h2] at h2'
      cases h2'
  | skip hp _ ih =>
    intro hb
    obtain ⟨r, v, h1, h2⟩ := hp
    cases hb with
    | take hp' hb =>
      obtain ⟨r', v', h1', h2', h3'⟩ := hp'
      have e := soloRun_done h1 h1'
      cases e
      rw [h2] at h2'
      cases h2'
    | skip hp' hb => exact ih hb

/-- The entity made by `NewFederationEntity`, with its trust mark fields set. -/
def configured (id : ID) (hints metadata : Option JV) (jwks : JV) (lifetime : Int) (extra : AMap JV) (marks : List OwnMark) (issuers owners : Option JV) :
    FedEntity :=
  { newFedEntity id hints metadata jwks lifetime extra with marks := marks, issuers := issuers, owners := owners }

/-- C44, the payload, for lifetimes up to 292 years: issued by and about the entity, valid from now for exactly the configured lifetime, or a day if none is
configured, with exactly the marks that could be provided. Missing: longer lifetimes, for which it is false (below). -/
theorem C44_payload_partial (id : ID) (hints metadata : Option JV) (jwks : JV) (lifetime : Int) (extra : AMap JV) (marks : List OwnMark)
    (issuers owners : Option JV) (now : Time) (ans : Nat → Option String) (hl : lifetime ≤ 9223372036) :
    let p := (configured id hints metadata jwks lifetime extra marks issuers owners).payload now ans
    p.iss = id ∧ p.sub = id ∧ p.iat = now ∧
      ((0 < lifetime → (p.exp - p.iat : Int) = lifetime * 1000000000) ∧ (lifetime ≤ 0 → (p.exp - p.iat : Int) = 24 * 60 * 60 * 1000000000)) ∧
      ExactlyProvided now ans 0 marks p.marks := by
  have key : ∀ a b c : Int, wrap64 (second * b) = c → (a + wrap64 (second * b)) - a = c := by intro a b c h; omega
  refine ⟨rfl, rfl, rfl, ⟨fun h => ?_, fun h => ?_⟩, publishedMarks_exact now ans marks 0⟩
  · show ((now : Int) + wrap64 (second * (if lifetime ≤ 0 then defaultLifetime else lifetime))) - now = _
    apply key
    rw [if_neg (by omega), wrap64_id (by unfold second; omega) (by unfold second; omega)]
    unfold second; omega
  · show ((now : Int) + wrap64 (second * (if lifetime ≤ 0 then defaultLifetime else lifetime))) - now = _
    apply key
    rw [if_pos h]
    decide

/-- C44, the published JWT: its claims are those of the payload, provided that `Extra` does not contain them. Missing: `Extra` claims that
replace them (below). -/
theorem C44_jwt_partial (f : FedEntity) (sign : Signer) (now : Time) (ans : Nat → Option String) (hwf : f.extra.WF)
    (he : ∀ k ∈ ["iss", "sub", "iat", "exp", "trust_marks"], f.extra.get k = none) :
    ∃ claims, f.jwt sign now ans = sign "entity-statement+jwt" claims ∧ OnlyMember claims "iss" (.str f.id) ∧ OnlyMember claims "sub" (.str f.id) ∧
      OnlyMember claims "iat" (.num (marshalTime now)) ∧ OnlyMember claims "exp" (.num (marshalTime (f.payload now ans).exp)) ∧
      (∀ l, OnlyMember claims "trust_marks" (.arr l) → l = (f.payload now ans).marks.map publishedMark) ∧
      ((f.payload now ans).marks ≠ [] → OnlyMember claims "trust_marks" (.arr ((f.payload now ans).marks.map publishedMark))) ∧
      ((f.payload now ans).marks = [] → NoMember claims "trust_marks") ∧
      (∀ k v, f.extra.get k = some v → OnlyMember claims k v) := by
  have hn : ((marshalObj entityStatementTags (f.struct (f.payload now ans))).map Prod.fst).Nodup := marshalObj_nodup (by decide) hwf
  have hget := fun k => marshalObj_get (tags := entityStatementTags) (o := f.struct (f.payload now ans)) (by decide) hwf k
  have hx : ∀ k, k ∈ ["iss", "sub", "iat", "exp", "trust_marks"] → (f.struct (f.payload now ans)).extra.get k = none := he
  refine ⟨_, rfl, onlyMember_of hn ?_, onlyMember_of hn ?_, onlyMember_of hn ?_, onlyMember_of hn ?_, ?_, ?_, ?_, ?_⟩
  · rw [hget, hx _ (by decide)]; rfl
  · rw [hget, hx _ (by decide)]; rfl
  · rw [hget, hx _ (by decide)]; rfl
  · rw [hget, hx _ (by decide)]; rfl
  · intro l hl
    have h2 := only_get hl
    rw [hget, hx _ (by decide)] at h2
    have h3 : (if (f.payload now ans).marks.isEmpty then none else some (JV.arr ((f.payload now ans).marks.map infoJSON))) = some (.arr l) := h2
    split at h3
    · cases h3
    · cases h3; rfl
  · intro hne
    apply onlyMember_of hn
    rw [hget, hx _ (by decide)]
    show (if (f.payload now ans).marks.isEmpty then none else some (JV.arr ((f.payload now ans).marks.map infoJSON))) = _
    rw [if_neg (by simpa using hne)]
    rfl
  · intro hnil kv hkv e
    have hg : AMap.get (marshalObj entityStatementTags (f.struct (f.payload now ans))) "trust_marks" = none := by
      rw [hget, hx _ (by decide)]
      show (if (f.payload now ans).marks.isEmpty then none else some (JV.arr ((f.payload now ans).marks.map infoJSON))) = _
      rw [hnil]; rfl
    exact (jget_none_iff _ _).mp hg (List.mem_map.mpr ⟨kv, hkv, e⟩)
  · intro k v hv
    apply onlyMember_of hn
    rw [hget]
    show (f.extra.get k).or _ = _
    rw [hv]
    rfl

/-- C44, the configured claims: each one is published as configured, or absent if not configured, provided that `Extra` does not contain it; and no claim is
published that is neither of these, nor one of the standard ones, nor in `Extra`. Missing: `Extra` claims that replace them (below). -/
theorem C44_configured_partial (id : ID) (hints metadata : Option JV) (jwks : JV) (lifetime : Int) (extra : AMap JV) (marks : List OwnMark)
    (issuers owners : Option JV) (sign : Signer) (now : Time) (ans : Nat → Option String) (hwf : extra.WF) :
    ∃ claims, (configured id hints metadata jwks lifetime extra marks issuers owners).jwt sign now ans = sign "entity-statement+jwt" claims ∧
      (∀ kc ∈ configuredClaims hints metadata jwks issuers owners, extra.get kc.1 = none →
        (∀ v, kc.2 = some v → OnlyMember claims kc.1 v) ∧ (kc.2 = none → NoMember claims kc.1)) ∧
      (∀ kv ∈ claims, kv.1 ∈ ["iss", "sub", "iat", "exp", "trust_marks"] ∨ kv.1 ∈ (configuredClaims hints metadata jwks issuers owners).map Prod.fst ∨
        extra.get kv.1 = some kv.2) := by
  let f := configured id hints metadata jwks lifetime extra marks issuers owners
  have hn : ((marshalObj entityStatementTags (f.struct (f.payload now ans))).map Prod.fst).Nodup := marshalObj_nodup (by decide) hwf
  have hget := fun k => marshalObj_get (tags := entityStatementTags) (o := f.struct (f.payload now ans)) (by decide) hwf k
  refine ⟨_, rfl, ?_, ?_⟩
  · intro kc hkc hex
    have hg : AMap.get (marshalObj entityStatementTags (f.struct (f.payload now ans))) kc.1 = kc.2 := by
      rw [hget]
      show (extra.get kc.1).or _ = _
      rw [hex]
      simp only [configuredClaims, List.mem_cons, List.not_mem_nil, or_false] at hkc
      rcases hkc with rfl | rfl | rfl | rfl | rfl <;> rfl
    refine ⟨fun v hv => onlyMember_of hn (by rw [← hv]; exact hg), fun hnone kv hkv e => ?_⟩
    rw [hnone] at hg
    exact (jget_none_iff _ _).mp hg (List.mem_map.mpr ⟨kv, hkv, e⟩)
  · intro kv hkv
    have hg : AMap.get (marshalObj entityStatementTags (f.struct (f.payload now ans))) kv.1 = some kv.2 := jget_of_mem hn hkv
    rw [hget] at hg
    have hg : (extra.get kv.1).or (if kv.1 ∈ entityStatementTags then (f.struct (f.payload now ans)).known kv.1 else none) = some kv.2 := hg
    cases he : extra.get kv.1 with
    | some x => rw [he] at hg; exact .inr (.inr hg)
    | none =>
      rw [he] at hg
      have hg : (if kv.1 ∈ entityStatementTags then (f.struct (f.payload now ans)).known kv.1 else none) = some kv.2 := hg
      split at hg
      · unfold FedEntity.struct at hg
        dsimp only at hg
        simp only [configuredClaims, List.map_cons, List.map_nil, List.mem_cons, List.not_mem_nil, or_false]
        repeat (first | (split at hg; · simp_all) | cases hg)
      · cases hg

example : AMap.WF [("x", JV.null)] ∧ AMap.get [("x", JV.null)] "metadata" = none ∧
    ("metadata", some (JV.obj [])) ∈ configuredClaims none (some (.obj [])) (.obj []) none none := ⟨by simp [AMap.WF, AMap.keys], rfl, by simp [configuredClaims]⟩

namespace Ex

/-- Three trust marks: a fixed one, one that is refreshed successfully, and one whose issuer does not answer. -/
def ownMarks : List OwnMark :=
  [⟨"fixed", ⟨false, 10, 10, fun _ => none⟩, ⟨"jwt-1", Time.zero, Time.zero⟩⟩,
   ⟨"new", ⟨true, 10, 10, fun _ => none⟩, ⟨"", Time.zero, Time.zero⟩⟩,
   ⟨"gone", ⟨true, 10, 10, fun _ => none⟩, ⟨"", Time.zero, Time.zero⟩⟩]

def ownEntity (extra : AMap JV) (lifetime : Int) : FedEntity := configured "https://rp" none none (.obj []) lifetime extra ownMarks none none

def markAnswers : Nat → Option String := fun n => if n = 1 then some "jwt-2" else none

example : ((ownEntity [] 0).payload 0 markAnswers).marks = [("fixed", "jwt-1"), ("new", "jwt-2")] ∧
    ((ownEntity [] 0).payload 0 markAnswers).exp = 86400000000000 := by decide

example : AMap.WF (ownEntity [("x", .null)] 0).extra ∧ ∀ k ∈ ["iss", "sub", "iat", "exp", "trust_marks"], (ownEntity [("x", .null)] 0).extra.get k = none :=
  ⟨by simp [AMap.WF, AMap.keys, ownEntity, configured, newFedEntity], by
    intro k hk
    simp only [List.mem_cons, List.not_mem_nil, or_false] at hk
    rcases hk with rfl | rfl | rfl | rfl | rfl <;> rfl⟩

end Ex

/-- C44 is false of very long lifetimes: the configuration expires before it is issued. -/
theorem C44_long_lifetime_refuted : ¬ ∀ (f : FedEntity) (now : Time) (ans : Nat → Option String), 0 < f.lifetime →
    (now : Int) < (f.payload now ans).exp := by
  intro h
  exact absurd (h (Ex.ownEntity [] 9223372037) 0 (fun _ => none) (by decide)) (by decide)

/-- C44 is false of the JWT if `Extra` contains `sub`: the published configuration is about somebody else. -/
theorem C44_extra_refuted : ¬ ∀ (f : FedEntity) (now : Time) (ans : Nat → Option String), f.extra.WF →
    OnlyMember (marshalObj entityStatementTags (f.struct (f.payload now ans))) "sub" (.str f.id) := by
  intro h
  have h1 := only_get (h (Ex.ownEntity [("sub", .str "https://evil")] 0) 0 (fun _ => none)
    (by simp [AMap.WF, AMap.keys, Ex.ownEntity, configured, newFedEntity]))
  rw [marshalObj_get (by decide) (by simp [AMap.WF, AMap.keys, FedEntity.struct, Ex.ownEntity, configured, newFedEntity])] at h1
  have h2 : (some (JV.str "https://evil")) = some (JV.str "https://rp") := h1
  simp at h2

end Oidfed
