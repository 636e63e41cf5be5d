import Verif.Lemmas.TimeClaims
import Verif.Model.Fetch
import Verif.Props.StmtJSON
/-!
# The times stated in a JWT decide when it is valid: C135
-/

namespace Oidfed
open Spec

/-- What the check of the times comes to, for whole seconds. -/
theorem check_whole {iat : Rat} {exp : Option Rat} (hi : WholeSecond iat) (he : ∀ e, exp = some e → WholeSecond e) (now : Time) :
    verifyTime now (some (unmarshalTime (float64 iat))) (exp.map (fun e => unmarshalTime (float64 e))) = true ↔ WithinStated iat exp now := by
  rw [verifyTime_iff (read_whole hi).2 (by
    intro t ht
    obtain ⟨e, he', rfl⟩ := Option.map_eq_some_iff.mp ht
    exact (read_whole (he e he')).2)]
  unfold WithinStated NotBefore NotAfter
  rw [← (read_whole hi).1]
  constructor
  · rintro ⟨h1, h2⟩
    refine ⟨by exact_mod_cast h1, ?_⟩
    intro e hx
    subst hx
    rw [← (read_whole (he e rfl)).1]
    exact_mod_cast h2 _ rfl
  · rintro ⟨h1, h2⟩
    refine ⟨by exact_mod_cast h1, ?_⟩
    intro t ht
    obtain ⟨e, he', rfl⟩ := Option.map_eq_some_iff.mp ht
    have h3 := h2 e he'
    rw [← (read_whole (he e he')).1] at h3
    exact_mod_cast h3

/-- What the check of the times comes to, for fractions. -/
theorem check_near {iat : Rat} {exp : Option Rat} (hi : NearPresent iat) (he : ∀ e, exp = some e → NearPresent e) (now : Time) :
    (verifyTime now (some (unmarshalTime (float64 iat))) (exp.map (fun e => unmarshalTime (float64 e))) = true → AlmostWithin iat exp now) ∧
    (WellWithin iat exp now → verifyTime now (some (unmarshalTime (float64 iat))) (exp.map (fun e => unmarshalTime (float64 e))) = true) := by
  rw [verifyTime_iff (read_near hi).2 (by
    intro t ht
    obtain ⟨e, he', rfl⟩ := Option.map_eq_some_iff.mp ht
    exact (read_near (he e he')).2)]
  unfold AlmostWithin WellWithin NotBefore NotAfter
  have h0 := abs_lt.mp (read_near hi).1
  constructor
  · rintro ⟨h1, h2⟩
    have h1' : ((unmarshalTime (float64 iat) : Int) : Rat) ≤ ((now : Int) : Rat) := by exact_mod_cast h1
    refine ⟨by push_cast; linarith, ?_⟩
    intro e hx
    subst hx
    have h3 := abs_lt.mp (read_near (he e rfl)).1
    have h2' : ((now : Int) : Rat) ≤ ((unmarshalTime (float64 e) : Int) : Rat) := by exact_mod_cast h2 _ rfl
    push_cast
    linarith
  · rintro ⟨h1, h2⟩
    push_cast at h1
    constructor
    · have : ((unmarshalTime (float64 iat) : Int) : Rat) ≤ ((now : Int) : Rat) := by linarith
      exact_mod_cast this
    · intro t ht
      obtain ⟨e, he', rfl⟩ := Option.map_eq_some_iff.mp ht
      have h3 := abs_lt.mp (read_near (he e he')).1
      have h4 := h2 e he'
      push_cast at h4
      have : ((now : Int) : Rat) ≤ ((unmarshalTime (float64 e) : Int) : Rat) := by linarith
      exact_mod_cast this

/-- The times of a parsed statement. -/
theorem stmt_times {K : KeyCodec} {opq : Opaque} {N : Numbering} {num : Jws → Nat} {P : String → Option Jws} {jwt : String} {j : Jws} {s : Stmt}
    (hj : P jwt = some j) (hs : parseStmt P (decodeStmt K opq N num) jwt = some s) :
    ∃ o, unmarshalObj entityStatementTags (stmtDec K opq) j.payload = some o ∧ s.iat = timeOf (o.known "iat") ∧ s.exp = timeOf (o.known "exp") := by
  unfold parseStmt at hs
  rw [hj] at hs
  simp only at hs
  split at hs
  · simp only [decodeStmt, ESPayload.read, Option.map_eq_some_iff] at hs
    obtain ⟨q, ⟨o, ho, rfl⟩, rfl⟩ := hs
    exact ⟨o, ho, rfl, rfl⟩
  · cases hs

theorem stmt_verify {K : KeyCodec} {opq : Opaque} {N : Numbering} {num : Jws → Nat} {P : String → Option Jws} {jwt : String} {j : Jws} {s : Stmt}
    (hj : P jwt = some j) (hs : parseStmt P (decodeStmt K opq N num) jwt = some s) {iat exp : Rat}
    (hi : StatesSeconds j.payload "iat" iat) (he : StatesSeconds j.payload "exp" exp) (now : Time) :
    s.timeValid now = verifyTime now (some (unmarshalTime (float64 iat))) ((some exp).map (fun e => unmarshalTime (float64 e))) := by
  obtain ⟨o, ho, h1, h2⟩ := stmt_times hj hs
  unfold Stmt.timeValid
  rw [h1, h2, stated_known ho hi (by decide) (fun _ => rfl), stated_known ho he (by decide) (fun _ => rfl)]
  rfl

/-- **C135** (part): an entity statement whose `iat` and `exp` are whole seconds is within its time at exactly the times from the one to the other that are written in
the JWT. Missing: fractions (below), statements without `iat` or `exp` and numbers that do not fit (refuted below). -/
theorem C135_statement_partial (K : KeyCodec) (opq : Opaque) (N : Numbering) (num : Jws → Nat) (P : String → Option Jws) (jwt : String) (j : Jws) (s : Stmt)
    (hj : P jwt = some j) (hs : parseStmt P (decodeStmt K opq N num) jwt = some s) (iat exp : Rat)
    (hi : StatesSeconds j.payload "iat" iat) (he : StatesSeconds j.payload "exp" exp) (hiw : WholeSecond iat) (hew : WholeSecond exp) (now : Time) :
    s.timeValid now = true ↔ WithinStated iat (some exp) now := by
  rw [stmt_verify hj hs hi he]
  exact check_whole hiw (fun e h => Option.some.inj h ▸ hew) now

/-- **C135** (part): the same for fractions of seconds, up to a microsecond. -/
theorem C135_statement_fraction_partial (K : KeyCodec) (opq : Opaque) (N : Numbering) (num : Jws → Nat) (P : String → Option Jws) (jwt : String) (j : Jws) (s : Stmt)
    (hj : P jwt = some j) (hs : parseStmt P (decodeStmt K opq N num) jwt = some s) (iat exp : Rat)
    (hi : StatesSeconds j.payload "iat" iat) (he : StatesSeconds j.payload "exp" exp) (hiw : NearPresent iat) (hew : NearPresent exp) (now : Time) :
    (s.timeValid now = true → AlmostWithin iat (some exp) now) ∧ (WellWithin iat (some exp) now → s.timeValid now = true) := by
  rw [stmt_verify hj hs hi he]
  exact check_near hiw (fun e h => Option.some.inj h ▸ hew) now

/-- The times of a parsed trust mark. -/
theorem mark_verify {R : JWTReader} {jwt : String} {c : JWTContent} {m : Mark} (hc : R jwt = some c) (hm : parseMark R jwt = some m) {iat : Rat} {exp : Option Rat}
    (hi : StatesSeconds c.payload "iat" iat) (he : StatesOptional c.payload "exp" exp) :
    m.iat = unmarshalTime (float64 iat) ∧ m.exp = exp.map (fun e => unmarshalTime (float64 e)) := by
  unfold parseMark at hm
  rw [hc] at hm
  simp only at hm
  split at hm
  · cases hm
  obtain ⟨o, ho, rfl⟩ := Option.map_eq_some_iff.mp hm
  refine ⟨?_, ?_⟩
  · show timeOf (o.known "iat") = _
    rw [stated_known ho hi (by decide) (fun _ => rfl)]
    rfl
  · show optTimeOf (o.known "exp") = _
    cases exp with
    | none =>
      rcases he with he | he
      · rw [not_stated_known ho he]; rfl
      · obtain ⟨cur, h1⟩ := last_known (by decide) (unmarshal_some ho).1 he (by decide)
        rw [← Option.some.inj (show some none = some (o.known "exp") from h1)]; rfl
    | some e => rw [stated_known ho he (by decide) (fun _ => rfl)]; rfl

theorem deleg_verify {R : JWTReader} {jwt : String} {c : JWTContent} {d : Delegation} (hc : R jwt = some c) (hd : parseDelegation R jwt = some d) {iat : Rat}
    {exp : Option Rat} (hi : StatesSeconds c.payload "iat" iat) (he : StatesOptional c.payload "exp" exp) :
    d.iat = unmarshalTime (float64 iat) ∧ d.exp = exp.map (fun e => unmarshalTime (float64 e)) := by
  unfold parseDelegation at hd
  rw [hc] at hd
  simp only at hd
  split at hd
  · cases hd
  obtain ⟨o, ho, rfl⟩ := Option.map_eq_some_iff.mp hd
  refine ⟨?_, ?_⟩
  · show timeOf (o.known "iat") = _
    rw [stated_known ho hi (by decide) (fun _ => rfl)]
    rfl
  · show optTimeOf (o.known "exp") = _
    cases exp with
    | none =>
      rcases he with he | he
      · rw [not_stated_known ho he]; rfl
      · obtain ⟨cur, h1⟩ := last_known (by decide) (unmarshal_some ho).1 he (by decide)
        rw [← Option.some.inj (show some none = some (o.known "exp") from h1)]; rfl
    | some e => rw [stated_known ho he (by decide) (fun _ => rfl)]; rfl

/-- Verifying includes the check of the times. -/
theorem verified_time {R : JWTReader} {sig : SigOracle} {nowM nowD : Time} {keys : Keys} {owners : List Owner} {m : Mark}
    (h : (m.verifyExternal R sig nowM nowD keys owners).1 = true) : verifyTime nowM (some m.iat) m.exp = true := by
  unfold Mark.verifyExternal at h
  cases hv : verifyTime nowM (some m.iat) m.exp with
  | true => rfl
  | false => rw [hv] at h; cases h

theorem verified_without {R : JWTReader} {sig : SigOracle} {nowM nowD : Time} {keys : Keys} {m : Mark} (hr : verifyRaw sig keys m.raw = true) :
    (m.verifyExternal R sig nowM nowD keys []).1 = verifyTime nowM (some m.iat) m.exp := by
  unfold Mark.verifyExternal
  cases verifyTime nowM (some m.iat) m.exp <;> simp [hr]

/-- **C135** (part): a trust mark whose `iat` and `exp` are whole seconds is accepted by `VerifyExternal` only at times from the one to the other that are written in the
JWT (or from the first on, if it has no `exp`), and if its signature verifies and there is no owner whose delegation is needed, at all of them. -/
theorem C135_mark_partial (R : JWTReader) (jwt : String) (c : JWTContent) (m : Mark) (hc : R jwt = some c) (hm : parseMark R jwt = some m)
    (iat : Rat) (exp : Option Rat) (hi : StatesSeconds c.payload "iat" iat) (he : StatesOptional c.payload "exp" exp)
    (hiw : WholeSecond iat) (hew : ∀ e, exp = some e → WholeSecond e) (sig : SigOracle) (nowM nowD : Time) (keys : Keys) (owners : List Owner) :
    ((m.verifyExternal R sig nowM nowD keys owners).1 = true → WithinStated iat exp nowM) ∧
    (verifyRaw sig keys m.raw = true → ((m.verifyExternal R sig nowM nowD keys []).1 = true ↔ WithinStated iat exp nowM)) := by
  obtain ⟨h1, h2⟩ := mark_verify hc hm hi he
  constructor
  · intro h
    have := verified_time h
    rw [h1, h2] at this
    exact (check_whole hiw hew nowM).mp this
  · intro hr
    rw [verified_without hr, h1, h2]
    exact check_whole hiw hew nowM

/-- **C135** (part): the same for fractions of seconds, up to a microsecond. -/
theorem C135_mark_fraction_partial (R : JWTReader) (jwt : String) (c : JWTContent) (m : Mark) (hc : R jwt = some c) (hm : parseMark R jwt = some m)
    (iat : Rat) (exp : Option Rat) (hi : StatesSeconds c.payload "iat" iat) (he : StatesOptional c.payload "exp" exp)
    (hiw : NearPresent iat) (hew : ∀ e, exp = some e → NearPresent e) (sig : SigOracle) (nowM nowD : Time) (keys : Keys) (owners : List Owner) :
    ((m.verifyExternal R sig nowM nowD keys owners).1 = true → AlmostWithin iat exp nowM) ∧
    (verifyRaw sig keys m.raw = true → WellWithin iat exp nowM → (m.verifyExternal R sig nowM nowD keys []).1 = true) := by
  obtain ⟨h1, h2⟩ := mark_verify hc hm hi he
  constructor
  · intro h
    have := verified_time h
    rw [h1, h2] at this
    exact (check_near hiw hew nowM).1 this
  · intro hr hw
    rw [verified_without hr, h1, h2]
    exact (check_near hiw hew nowM).2 hw

/-- **C135** (part): a delegation whose signature verifies is accepted by `VerifyExternal` at exactly the times from the `iat` to the `exp` (if any) that are written in the
JWT, for whole seconds. -/
theorem C135_delegation_partial (R : JWTReader) (jwt : String) (c : JWTContent) (d : Delegation) (hc : R jwt = some c) (hd : parseDelegation R jwt = some d)
    (iat : Rat) (exp : Option Rat) (hi : StatesSeconds c.payload "iat" iat) (he : StatesOptional c.payload "exp" exp)
    (hiw : WholeSecond iat) (hew : ∀ e, exp = some e → WholeSecond e) (sig : SigOracle) (now : Time) (keys : Keys) :
    d.verifyExternal sig now keys = true ↔ WithinStated iat exp now ∧ verifyRaw sig keys d.raw = true := by
  obtain ⟨h1, h2⟩ := deleg_verify hc hd hi he
  unfold Delegation.verifyExternal
  rw [Bool.and_eq_true, h1, h2, check_whole hiw hew now]

/-! ## Where it fails -/

/-- The number is too large for a time: it is read as a time in the distant past. -/
theorem read_large : unmarshalTime (float64 (2 ^ 70)) = -9223372036854775808 * second := by
  rw [float64_exact (m := 1) (k := 70) (by norm_num) (by decide)]
  have e : ((2 : ℚ) ^ 70) = ((2 ^ 70 : ℤ) : ℚ) := by norm_num
  unfold unmarshalTime
  simp only
  rw [e, truncZ_int, sub_self, zero_mul]
  have h1 : toInt64 ((2 ^ 70 : ℤ) : ℚ) = -9223372036854775808 := by
    unfold toInt64
    rw [truncZ_int, if_neg (by norm_num)]
  have h2 : toInt64 (float64 0) = 0 := by
    have : float64 0 = ((0 : ℤ) : ℚ) := by rw [show (0 : ℚ) = ((0 : ℤ) : ℚ) by norm_num, float64_int (by norm_num)]
    rw [this, toInt64_int (by norm_num)]
  rw [h1, h2]
  decide

/-- **C135 fails** for numbers that do not fit: a trust mark whose `iat` is 2⁷⁰ seconds after 1970 is accepted as issued long ago. -/
theorem C135_large_iat_refuted (sig : SigOracle) (keys : Keys) (raw : Nat) (hr : verifyRaw sig keys (some raw) = true) (now nowD : Time) (hn : 0 ≤ (now : Int)) :
    let c : JWTContent := ⟨"trust-mark+jwt", [("iat", .num (2 ^ 70))], raw⟩
    StatesOnce c.payload "iat" (2 ^ 70) ∧ ∃ m, parseMark (fun _ => some c) "jwt" = some m ∧ (m.verifyExternal (fun _ => some c) sig now nowD keys []).1 = true := by
  refine ⟨⟨[], [], rfl, by intro kv h; cases h⟩, _, rfl, ?_⟩
  rw [verified_without hr]
  show verifyTime now (some (unmarshalTime (float64 (2 ^ 70)))) none = true
  rw [read_large]
  rw [verifyTime_iff (by decide) (by intro e h; cases h)]
  refine ⟨?_, by intro e h; cases h⟩
  have : ∀ n : Int, 0 ≤ n → -9223372036854775808 * second ≤ n := by intro n h; unfold second; omega
  exact this now hn

/-- **C135 fails** for numbers that do not fit: a trust mark that expires 2⁷⁰ seconds after 1970 is refused as expired. -/
theorem C135_large_exp_refuted (R : JWTReader) (sig : SigOracle) (keys : Keys) (raw : Nat) (owners : List Owner) (now nowD : Time) (hn : 0 ≤ (now : Int)) :
    let c : JWTContent := ⟨"trust-mark+jwt", [("iat", .num 0), ("exp", .num (2 ^ 70))], raw⟩
    StatesOnce c.payload "exp" (2 ^ 70) ∧ ∃ m, parseMark (fun _ => some c) "jwt" = some m ∧ (m.verifyExternal R sig now nowD keys owners).1 = false := by
  refine ⟨⟨[("iat", .num 0)], [], rfl, by intro kv h; simp at h; subst h; unfold SpelledAs; decide⟩, _, rfl, ?_⟩
  rw [Bool.eq_false_iff]
  intro h
  have h1 := verified_time h
  have h2 : verifyTime now (some (unmarshalTime (float64 0))) (some (unmarshalTime (float64 (2 ^ 70)))) = true := h1
  rw [read_large] at h2
  have h0 : unmarshalTime (float64 0) = 0 := by
    rw [show (0 : ℚ) = ((0 : ℤ) : ℚ) by norm_num, float64_int (by norm_num), unmarshalTime_int (by norm_num)]
    rfl
  rw [h0, verifyTime_iff (by decide) (by intro e h; cases h; decide)] at h2
  have : ∀ n : Int, 0 ≤ n → n ≤ -9223372036854775808 * second → False := by intro n h h'; unfold second at h'; omega
  exact this now hn (h2.2 _ rfl)

/-- **C135 fails** for 1 January of the year 1: an entity statement that expired then is valid for ever, like one without `exp`. -/
theorem C135_year_one_refuted (K : KeyCodec) (opq : Opaque) (N : Numbering) (num : Jws → Nat) (P : String → Option Jws) (jwt : String) (j : Jws) (s : Stmt)
    (hj : P jwt = some j) (hs : parseStmt P (decodeStmt K opq N num) jwt = some s) (iat : Rat) (hi : StatesSeconds j.payload "iat" iat) (hiw : WholeSecond iat)
    (he : StatesSeconds j.payload "exp" (-62135596800) ∨ NotStated j.payload "exp") (now : Time) (hn : NotBefore iat now) : s.timeValid now = true := by
  obtain ⟨o, ho, h1, h2⟩ := stmt_times hj hs
  have hz : s.exp = Time.zero := by
    rw [h2]
    rcases he with he | he
    · rw [stated_known ho he (by decide) (fun _ => rfl)]
      show unmarshalTime (float64 (-62135596800)) = _
      rw [show (-62135596800 : ℚ) = ((-62135596800 : ℤ) : ℚ) by norm_num, float64_int (by decide), unmarshalTime_int (by decide)]
      rfl
    · rw [not_stated_known ho he]
      rfl
  unfold Stmt.timeValid
  rw [h1, hz, stated_known ho hi (by decide) (fun _ => rfl)]
  have h3 := (check_whole hiw (exp := none) (by intro e h; cases h) now).mpr ⟨hn, by intro e h; cases h⟩
  unfold verifyTime at h3 ⊢
  show (if (!Time.isZero (unmarshalTime (float64 iat)) && decide (now < unmarshalTime (float64 iat))) = true then false else _) = true
  simp only [Option.map_none] at h3
  split
  · rename_i h; rw [if_pos h] at h3; cases h3
  · simp [Time.isZero]

/-! ## Non-vacuity -/

namespace ExTC
open ExS

/-- The payload of a statement. -/
def claims (iat exp : Rat) : JObj := [("iss", .str "https://ta"), ("sub", .str "https://leaf"), ("iat", .num iat), ("exp", .num exp)]

/-- The message with that payload. -/
def msg (l : JObj) : Jws := ⟨l, [⟨some "entity-statement+jwt", some "k", some "ES512", 1⟩]⟩

theorem states_iat (iat exp : Rat) : StatesOnce (claims iat exp) "iat" iat :=
  ⟨[("iss", .str "https://ta"), ("sub", .str "https://leaf")], [("exp", .num exp)], rfl, by
    intro kv h
    simp only [List.cons_append, List.nil_append, List.mem_cons, List.not_mem_nil, or_false] at h
    have : kv.1 = "iss" ∨ kv.1 = "sub" ∨ kv.1 = "exp" := by rcases h with rfl | rfl | rfl <;> simp
    unfold SpelledAs
    rcases this with e | e | e <;> rw [e] <;> decide⟩

theorem states_exp (iat exp : Rat) : StatesOnce (claims iat exp) "exp" exp :=
  ⟨[("iss", .str "https://ta"), ("sub", .str "https://leaf"), ("iat", .num iat)], [], rfl, by
    intro kv h
    simp only [List.append_nil, List.mem_cons, List.not_mem_nil, or_false] at h
    have : kv.1 = "iss" ∨ kv.1 = "sub" ∨ kv.1 = "iat" := by rcases h with rfl | rfl | rfl <;> simp
    unfold SpelledAs
    rcases this with e | e | e <;> rw [e] <;> decide⟩

/-- A statement that was issued in November 2025 and is valid for a day: it is refused a second before and a second after. -/
example : ∃ s, parseStmt (fun _ => some (msg (claims 1763352000 1763438400))) (decodeStmt codec opq ⟨fun _ => 0, fun _ => 0⟩ (fun _ => 0)) "jwt" = some s ∧
    s.timeValid 1763352001000000000 = true ∧ s.timeValid 1763351999000000000 = false ∧ s.timeValid 1763438401000000000 = false := by
  refine ⟨_, rfl, ?_⟩
  have h := C135_statement_partial codec opq ⟨fun _ => 0, fun _ => 0⟩ (fun _ => 0) (fun _ => some (msg (claims 1763352000 1763438400))) "jwt" _ _ rfl rfl
    1763352000 1763438400 (states_iat _ _).last (states_exp _ _).last ⟨1763352000, by norm_num, by decide, by decide, by decide⟩
    ⟨1763438400, by norm_num, by decide, by decide, by decide⟩
  refine ⟨(h _).mpr ⟨?_, ?_⟩, ?_, ?_⟩
  · unfold NotBefore; norm_num
  · intro e he; cases he; unfold NotAfter; norm_num
  · rw [Bool.eq_false_iff]; intro hc; have := ((h _).mp hc).1; unfold NotBefore at this; norm_num at this
  · rw [Bool.eq_false_iff]; intro hc; have := ((h _).mp hc).2 _ rfl; unfold NotAfter at this; norm_num at this

/-- One with fractions. -/
example : ∃ s, parseStmt (fun _ => some (msg (claims (1763352000 + 1 / 3) 1763438400))) (decodeStmt codec opq ⟨fun _ => 0, fun _ => 0⟩ (fun _ => 0)) "jwt" = some s ∧
    s.timeValid 1763352000333335000 = true ∧ s.timeValid 1763352000333332000 = false := by
  refine ⟨_, rfl, ?_⟩
  have h := C135_statement_fraction_partial codec opq ⟨fun _ => 0, fun _ => 0⟩ (fun _ => 0) (fun _ => some (msg (claims (1763352000 + 1 / 3) 1763438400))) "jwt" _ _ rfl rfl
    (1763352000 + 1 / 3) 1763438400 (states_iat _ _).last (states_exp _ _).last (by unfold NearPresent; norm_num) (by unfold NearPresent; norm_num)
  refine ⟨(h _).2 ⟨?_, ?_⟩, ?_⟩
  · unfold NotBefore; norm_num
  · intro e he; cases he; unfold NotAfter; norm_num
  · rw [Bool.eq_false_iff]; intro hc; have := ((h _).1 hc).1; unfold NotBefore at this; norm_num at this

/-- One that expired in the year 1 is valid. -/
example : ∃ s, parseStmt (fun _ => some (msg (claims 0 (-62135596800)))) (decodeStmt codec opq ⟨fun _ => 0, fun _ => 0⟩ (fun _ => 0)) "jwt" = some s ∧
    s.timeValid 1763352001000000000 = true :=
  ⟨_, rfl, C135_year_one_refuted codec opq ⟨fun _ => 0, fun _ => 0⟩ (fun _ => 0) (fun _ => some (msg (claims 0 (-62135596800)))) "jwt" _ _ rfl rfl
    0 (states_iat _ _).last ⟨0, by norm_num, by decide, by decide, by decide⟩ (.inl (states_exp _ _).last) _ (by unfold NotBefore; norm_num)⟩

/-- A trust mark with and one without expiry, and a delegation. -/
example (typ : String) (raw : Nat) : (∃ m, parseMark (fun _ => some ⟨"trust-mark+jwt", claims 1763352000 1763438400, raw⟩) "jwt" = some m) ∧
    (∃ m, parseMark (fun _ => some ⟨"trust-mark+jwt", [("iat", .num 1763352000)], raw⟩) "jwt" = some m) ∧
    StatesOptional [("iat", .num 1763352000)] "exp" none ∧
    ∃ d, parseDelegation (fun _ => some ⟨"trust-mark-delegation+jwt", claims 1763352000 1763438400, raw⟩) "jwt" = some d :=
  ⟨⟨_, rfl⟩, ⟨_, rfl⟩, .inl (by intro kv h; rw [List.mem_singleton] at h; subst h; unfold SpelledAs; decide), _, rfl⟩

/-- A statement that was to expire in 1970, until another `exp` was added: it is valid. -/
example : ∃ s, parseStmt (fun _ => some (msg (claims 1763352000 0 ++ [("EXP", .num 1763438400)]))) (decodeStmt codec opq ⟨fun _ => 0, fun _ => 0⟩ (fun _ => 0)) "jwt" = some s ∧
    s.timeValid 1763352001000000000 = true := by
  refine ⟨_, rfl, (C135_statement_partial codec opq ⟨fun _ => 0, fun _ => 0⟩ (fun _ => 0) (fun _ => some (msg (claims 1763352000 0 ++ [("EXP", .num 1763438400)]))) "jwt" _ _ rfl rfl
    1763352000 1763438400 ⟨[("iss", .str "https://ta"), ("sub", .str "https://leaf")], "iat", [("exp", .num 0), ("EXP", .num 1763438400)], rfl, rfl, ?_⟩
    ⟨claims 1763352000 0, "EXP", [], rfl, by unfold SpelledAs; decide, by intro kv h; cases h⟩ ⟨1763352000, by norm_num, by decide, by decide, by decide⟩
    ⟨1763438400, by norm_num, by decide, by decide, by decide⟩ _).mpr ⟨?_, ?_⟩⟩
  · intro kv h
    simp only [List.mem_cons, List.not_mem_nil, or_false] at h
    unfold SpelledAs
    rcases h with rfl | rfl <;> decide
  · unfold NotBefore; norm_num
  · intro e he; cases he; unfold NotAfter; norm_num

/-- A trust mark whose expiry is null in the end does not expire. -/
example : StatesOptional [("exp", .num 5), ("exp", .null)] "exp" none := .inr ⟨[("exp", .num 5)], "exp", [], rfl, rfl, by intro kv h; cases h⟩

/-- Signatures that verify. -/
example : verifyRaw (fun _ _ => true) (some [1]) (some 3) = true := rfl

end ExTC

end Oidfed
