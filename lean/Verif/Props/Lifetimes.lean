import Verif.Lemmas.TimeClaims
import Verif.Props.MarkJSON
/-!
# Trust marks live as long as the specification says: C136
-/

namespace Oidfed
open Spec

/-- A YAML member for a field is decoded into it. -/
theorem yaml_field {tags : List String} {dec : FieldDec} {k : String} {v : JV} (hk : k ∈ tags) : ∀ {l : JObj} {f g : String → Option JV},
    hasDup l = false → decodeYAML tags dec l f = some g → (k, v) ∈ l → dec k (f k) v = some (g k) := by
  have keep : ∀ {l : JObj} {f g : String → Option JV}, decodeYAML tags dec l f = some g → (∀ kv ∈ l, kv.1 ≠ k) → g k = f k := by
    intro l
    induction l with
    | nil => intro f g h _; cases h; rfl
    | cons a l ih =>
      obtain ⟨k', v'⟩ := a
      intro f g h hn
      have hn' := fun kv hkv => hn kv (List.mem_cons_of_mem _ hkv)
      simp only [decodeYAML] at h
      split at h
      · cases hd : dec k' (f k') v' with
        | none => rw [hd] at h; cases h
        | some x =>
          rw [hd] at h
          rw [ih h hn']
          have : k ≠ k' := fun e => hn _ List.mem_cons_self e.symm
          simp [this]
      · exact ih h hn'
  intro l
  induction l with
  | nil => intro f g _ _ h; cases h
  | cons a l ih =>
    obtain ⟨k', v'⟩ := a
    intro f g hd h hm
    simp only [hasDup, Bool.or_eq_false_iff] at hd
    simp only [decodeYAML] at h
    by_cases e : k' = k
    · subst e
      have hn : ∀ kv ∈ l, kv.1 ≠ k' := by
        intro kv hkv e
        have := List.any_eq_false.mp hd.1 kv hkv
        simp [e] at this
      have hv : v = v' := by
        rcases List.mem_cons.mp hm with h1 | h1
        · exact (Prod.mk.inj h1).2
        · exact absurd rfl (hn _ h1)
      subst hv
      rw [if_pos hk] at h
      cases hx : dec k' (f k') v with
      | none => rw [hx] at h; cases h
      | some x =>
        rw [hx] at h
        rw [keep h hn]
        simp
    · have hm' : (k, v) ∈ l := by
        rcases List.mem_cons.mp hm with h1 | h1
        · exact absurd (Prod.mk.inj h1).1.symm e
        · exact h1
      split at h
      · cases hx : dec k' (f k') v' with
        | none => rw [hx] at h; cases h
        | some x =>
          rw [hx] at h
          have := ih hd.2 h hm'
          simpa [Ne.symm e] using this
      · exact ih hd.2 h hm'

/-- The lifetime that is read. -/
theorem spec_lifetime {l : JObj} {s : MarkSpec} {q : Rat} (hq : StatesOnce l "lifetime" q)
    (h : readSpecJSON l = some s ∨ ∃ text, readSpecYAML text l = some s) : s.lifetime = unmarshalDuration (float64 q) := by
  rcases h with h | ⟨text, h⟩
  · obtain ⟨o, ho, rfl⟩ := Option.map_eq_some_iff.mp h
    show durationOf (o.known "lifetime") = _
    rw [stated_known ho hq.last (by decide) (fun _ => rfl)]
    rfl
  · obtain ⟨o, ho, rfl⟩ := Option.map_eq_some_iff.mp h
    show durationOf (o.known "lifetime") = _
    unfold readYAML at ho
    split at ho
    · cases ho
    rename_i hd
    split at ho
    · cases ho
    rename_i f hf
    cases ho
    obtain ⟨pre, post, rfl, _⟩ := hq
    have h1 := yaml_field (k := "lifetime") (v := .num q) (by decide) (by simpa using hd) hf (List.mem_append_right _ List.mem_cons_self)
    have h2 : f "lifetime" = some (.num q) := (Option.some.inj h1).symm
    show durationOf (f "lifetime") = _
    rw [h2]
    rfl

/-- **C136** (part): whoever parses a trust mark that was issued, without another lifetime being asked for, by a specification read from JSON or YAML in which the lifetime
is a whole number of seconds (at most 146 years) sees an expiry that many seconds after issuance, to two microseconds; and none if the number is 0. Missing:
fractions and longer lifetimes (refuted below). -/
theorem C136_whole_partial (l : JObj) (s : MarkSpec) (n : Int) (hq : StatesOnce l "lifetime" n)
    (h : readSpecJSON l = some s ∨ ∃ text, readSpecYAML text l = some s) (hn : |n * second| ≤ 2 ^ 62)
    (I : MarkIssuer) (R : JWTReader) (sig : SigOracle) (keys : List Nat) (now : Time) (sub : String) (info : Info)
    (hs : I.spec s.type = some s) (hi : I.issue now s.type sub [] = some info) (hS : SignsAs I.sign R sig keys "trust-mark+jwt" (I.payload s now sub []))
    (hw : s.extra.WF) (hx : ∀ k ∈ s.extra.keys, ∀ t ∈ markTags, Apart t k) (hr : InRange now) (hre : InRange (now + n * second)) :
    ∃ v, viewMark R info.jwt = some v ∧ (n = 0 → v.exp = none) ∧ (n ≠ 0 → ∃ e, v.exp = some e ∧ Near e (now + n * second)) := by
  have hl : s.lifetime = n * second := by
    rw [spec_lifetime hq h, float64_int (by
      unfold second at hn
      rw [abs_mul] at hn
      norm_num at hn ⊢
      omega)]
    exact duration_int hn
  obtain ⟨⟨v, hv, _, _, _, _, _, _, _, _, h1, h2⟩, _⟩ := C120_mark_partial I R sig keys now s.type sub [] info s hs hi hS hw hx (n * second)
    (.inr ⟨rfl, hl.symm⟩) hr hre
  refine ⟨v, hv, ?_, ?_⟩
  · intro h0; exact h1 (by rw [h0]; rfl)
  · intro h0
    exact h2 (by unfold second; omega)

/-- **C136 fails** for lifetimes below a second: half a second is read as no limit, and what is issued does not expire. -/
theorem C136_short_refuted (sign : Signer) (hsign : ∀ p, sign "trust-mark+jwt" p = some "m") (now : Time) : ∃ s info v,
    readSpecJSON [("trust_mark_type", .str "tm"), ("lifetime", .num (1 / 2))] = some s ∧
    readSpecYAML (fun _ => "") [("trust_mark_type", .str "tm"), ("lifetime", .num (1 / 2))] = some s ∧
    (newMarkIssuer "https://tmi" sign [s]).issue now "tm" "https://leaf" [] = some info ∧
    viewMark (fun _ => some ⟨"trust-mark+jwt", (newMarkIssuer "https://tmi" sign [s]).payload s now "https://leaf" [], 7⟩) info.jwt = some v ∧
    v.exp = none := by
  have hd : unmarshalDuration (float64 (1 / 2)) = 0 := by
    rw [float64_exact (m := 1) (k := -1) (by norm_num) (by decide)]
    unfold unmarshalDuration
    rw [toInt64_eq (by norm_num [abs_of_pos])]
    unfold truncZ
    rw [if_pos (by norm_num), show ⌊(1 / 2 : ℚ)⌋ = 0 by rw [Int.floor_eq_iff]; norm_num]
    decide
  let s : MarkSpec := ⟨"tm", unmarshalDuration (float64 (1 / 2)), "", "", [], false, ""⟩
  have hs : s.lifetime = 0 := hd
  have hi : (newMarkIssuer "https://tmi" sign [s]).issue now "tm" "https://leaf" [] =
      some ⟨"tm", "m", [], some ⟨"https://tmi", "https://leaf", "tm", now, s.expiry now [], "", none, none⟩⟩ := by
    unfold MarkIssuer.issue
    have : (newMarkIssuer "https://tmi" sign [s]).spec "tm" = some s := rfl
    rw [this]
    simp only
    have : (newMarkIssuer "https://tmi" sign [s]).sign = sign := rfl
    rw [this, hsign]
    rfl
  have he : s.expiry now [] = none := by
    unfold MarkSpec.expiry lifetimeOf
    simp [hs]
  obtain ⟨v, h1, _, _, _, _, h2, _⟩ := markView_read "https://tmi" "https://leaf" "tm" now none "" "" "" [] (by simp [AMap.WF, AMap.keys])
    (by simp [AMap.keys])
  refine ⟨s, _, v, rfl, rfl, hi, ?_, h2⟩
  unfold MarkIssuer.payload
  rw [he]
  exact h1

/-- **C136 fails** for lifetimes that do not fit 64 bits of nanoseconds: ten thousand million seconds (317 years) become a negative lifetime, and the expiry given is
before the time of issuance. -/
theorem C136_long_refuted (sign : Signer) (hsign : ∀ p, sign "trust-mark+jwt" p = some "m") (now : Time) : ∃ s info m e,
    readSpecJSON [("trust_mark_type", .str "tm"), ("lifetime", .num 10000000000)] = some s ∧
    readSpecYAML (fun _ => "") [("trust_mark_type", .str "tm"), ("lifetime", .num 10000000000)] = some s ∧
    (newMarkIssuer "https://tmi" sign [s]).issue now "tm" "https://leaf" [] = some info ∧ info.cached = some m ∧ m.exp = some e ∧ (e : Int) < now := by
  have hd : unmarshalDuration (float64 10000000000) = -8446744073709551616 := by
    rw [show (10000000000 : ℚ) = ((10000000000 : ℤ) : ℚ) by norm_num, float64_int (by decide)]
    unfold unmarshalDuration
    rw [toInt64_int (by decide)]
    decide
  let s : MarkSpec := ⟨"tm", unmarshalDuration (float64 10000000000), "", "", [], false, ""⟩
  have hs : s.lifetime = -8446744073709551616 := hd
  have he : s.expiry now [] = some ((now : Int) + -8446744073709551616) := by
    unfold MarkSpec.expiry lifetimeOf
    simp only [hs]
    rw [if_pos (by decide)]
  have hi : (newMarkIssuer "https://tmi" sign [s]).issue now "tm" "https://leaf" [] =
      some ⟨"tm", "m", [], some ⟨"https://tmi", "https://leaf", "tm", now, s.expiry now [], "", none, none⟩⟩ := by
    unfold MarkIssuer.issue
    have : (newMarkIssuer "https://tmi" sign [s]).spec "tm" = some s := rfl
    rw [this]
    simp only
    have : (newMarkIssuer "https://tmi" sign [s]).sign = sign := rfl
    rw [this, hsign]
    rfl
  refine ⟨s, _, _, _, rfl, rfl, hi, rfl, he, ?_⟩
  have : ∀ n : Int, n + -8446744073709551616 < n := by intro n; omega
  exact this now

namespace ExLT

/-- A specification with a lifetime of an hour. -/
def spec : MarkSpec := ⟨"tm", unmarshalDuration (float64 ((3600 : Int) : Rat)), "", "", [("level", .str "high")], false, ""⟩

def json : JObj := [("trust_mark_type", .str "tm"), ("lifetime", .num ((3600 : Int) : Rat)), ("level", .str "high")]

def issuer : MarkIssuer := newMarkIssuer "https://tmi" Ex.signer [spec]

def reader : JWTReader := fun s => if s = "m" then some ⟨"trust-mark+jwt", issuer.payload spec Ex.t0 "https://leaf" [], 7⟩ else none

theorem states : StatesOnce json "lifetime" ((3600 : Int) : Rat) :=
  ⟨[("trust_mark_type", .str "tm")], [("level", .str "high")], rfl, by
    intro kv h
    simp only [List.cons_append, List.nil_append, List.mem_cons, List.not_mem_nil, or_false] at h
    unfold SpelledAs
    rcases h with rfl | rfl <;> decide⟩

/-- The hypotheses are met, by JSON and by YAML. -/
example : readSpecYAML (fun _ => "") json = some spec ∧ ∃ v e, viewMark reader "m" = some v ∧ v.exp = some e ∧ Near e (Ex.t0 + 3600 * second) := by
  refine ⟨rfl, ?_⟩
  obtain ⟨v, h1, _, h2⟩ := C136_whole_partial json spec 3600 states (.inl rfl) (by decide) issuer reader Ex.sig [7] Ex.t0 "https://leaf" _ rfl rfl
    (by intro jwt hj; exact ⟨7, by cases hj; rfl, rfl⟩) (by simp [AMap.WF, AMap.keys, spec]) (by simp only [spec, AMap.keys, Apart]; decide)
    (by unfold InRange; decide) (by unfold InRange; decide)
  obtain ⟨e, h3, h4⟩ := h2 (by decide)
  exact ⟨v, e, h1, h3, h4⟩

/-- Such a signer. -/
example : ∃ sign : Signer, ∀ p, sign "trust-mark+jwt" p = some "m" := ⟨fun _ _ => some "m", fun _ => rfl⟩

end ExLT

end Oidfed
