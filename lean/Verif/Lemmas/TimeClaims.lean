import Verif.Lemmas.AuthCode
import Verif.Lemmas.Unixtime
import Verif.Model.StmtJSON
import Verif.Spec.TimeClaims
/-! Reading the times that a JWT states. -/

namespace Oidfed
open Spec

/-- A name in another spelling is for the field, if the fields are told apart. -/
theorem fieldFor_spelled {tags : List String} (hn : (tags.map foldName).Nodup) {t k : String} (ht : t ∈ tags) (hk : SpelledAs t k) : fieldFor tags k = some t := by
  cases h : fieldFor tags k with
  | none =>
    exfalso
    unfold fieldFor at h
    split at h
    · cases h
    · rw [List.find?_eq_none] at h
      exact h t ht (beq_iff_eq.mpr (Eq.symm hk))
  | some u =>
    obtain ⟨h3, h4⟩ := fieldFor_some h
    have : ∀ (l : List String), (l.map foldName).Nodup → ∀ a ∈ l, ∀ b ∈ l, foldName a = foldName b → a = b := by
      intro l
      induction l with
      | nil => intro _ a ha; cases ha
      | cons x l ih =>
        intro hn a ha b hb e
        rw [List.map_cons, List.nodup_cons] at hn
        rcases List.mem_cons.mp ha with ha' | ha' <;> rcases List.mem_cons.mp hb with hb' | hb'
        · rw [ha', hb']
        · exact absurd (List.mem_map.mpr ⟨b, hb', by rw [← e, ha']⟩) hn.1
        · exact absurd (List.mem_map.mpr ⟨a, ha', by rw [e, hb']⟩) hn.1
        · exact ih hn.2 a ha' b hb' e
    rw [this tags hn u h3 t ht (h4.trans hk)]

/-- A field has what is decoded from the last member for it, given what was decoded before. -/
theorem last_known {tags : List String} {dec : FieldDec} {l : JObj} {f g : String → Option JV} {t : String} {v : JV} (hn : (tags.map foldName).Nodup)
    (h : decodeKnown tags dec l f = some g) (hs : LastStated l t v) (ht : t ∈ tags) : ∃ cur, dec t cur v = some (g t) := by
  obtain ⟨pre, k, post, rfl, hk, hp⟩ := hs
  rw [decodeKnown_append] at h
  cases h1 : decodeKnown tags dec pre f with
  | none => rw [h1] at h; cases h
  | some f1 =>
    rw [h1, Option.bind_some, decodeKnown, fieldFor_spelled hn ht hk] at h
    simp only at h
    cases h2 : dec t (f1 t) v with
    | none => rw [h2] at h; cases h
    | some x =>
      rw [h2] at h
      have h3 := decode_other (t := t) h (fun kv hkv hf => hp kv hkv (fieldFor_some hf).2.symm)
      refine ⟨f1 t, ?_⟩
      rw [h2, h3]
      simp

/-- A time field has the number that is stated. -/
theorem stated_known {tags : List String} {dec : FieldDec} {l : JObj} {o : JStruct} {t : String} {q : Rat} (h : unmarshalObj tags dec l = some o)
    (hs : StatesSeconds l t q) (hn : (tags.map foldName).Nodup ∧ t ∈ tags) (hd : ∀ cur, dec t cur (.num q) = some (some (.num q))) : o.known t = some (.num q) := by
  obtain ⟨cur, h1⟩ := last_known hn.1 (unmarshal_some h).1 hs hn.2
  rw [hd] at h1
  exact (Option.some.inj h1).symm

theorem Spec.StatesOnce.last {l : JObj} {t : String} {q : Rat} (h : StatesOnce l t q) : StatesSeconds l t q := by
  obtain ⟨pre, post, e, hn⟩ := h
  exact ⟨pre, t, post, e, rfl, fun kv hkv => hn kv (List.mem_append_right _ hkv)⟩

theorem not_stated_known {tags : List String} {dec : FieldDec} {l : JObj} {o : JStruct} {t : String} (h : unmarshalObj tags dec l = some o)
    (hs : NotStated l t) : o.known t = none :=
  decode_other (unmarshal_some h).1 (fun kv hkv hf => hs kv hkv (fieldFor_some hf).2.symm)

theorem tmDec_iat (cur : Option JV) (q : Rat) : tmDec "iat" cur (.num q) = some (some (.num q)) := rfl
theorem tmDec_exp (cur : Option JV) (q : Rat) : tmDec "exp" cur (.num q) = some (some (.num q)) := rfl

/-- A whole second is read as it is. -/
theorem read_whole {q : Rat} (h : WholeSecond q) : ((unmarshalTime (float64 q) : Int) : Rat) = q * 1000000000 ∧ (unmarshalTime (float64 q)).isZero = false := by
  obtain ⟨n, rfl, h1, h2, h3⟩ := h
  have ha : |n| ≤ 2 ^ 53 := abs_le.mpr ⟨by norm_num; exact h1, by norm_num; exact h2⟩
  have e : unmarshalTime (float64 n) = n * second := by
    rw [float64_int ha, unmarshalTime_int (le_trans ha (by norm_num))]
  rw [e]
  constructor
  · unfold second; push_cast; rfl
  · have : (n * second : Int) ≠ Time.zero := by unfold second Time.zero; omega
    simpa [Time.isZero] using this

/-- A fraction is read with an error below a microsecond. -/
theorem read_near {q : Rat} (h : NearPresent q) : |((unmarshalTime (float64 q) : Int) : Rat) - q * 1000000000| < 1000 ∧
    (unmarshalTime (float64 q)).isZero = false := by
  obtain ⟨h1, h2⟩ := h
  have hq : |q| ≤ 2 ^ 33 := abs_le.mpr ⟨by norm_num; exact h1, by norm_num; exact h2⟩
  have e1 : |float64 q - q| ≤ 1 / 2 ^ 20 := by
    refine le_trans (float64_err q) ?_
    rw [div_le_div_iff₀ (by positivity) (by positivity)]
    have := mul_le_mul_of_nonneg_right hq (by positivity : (0 : ℚ) ≤ 2 ^ 20)
    norm_num at this ⊢
    linarith
  have hr : |float64 q| ≤ 2 ^ 61 := by
    rw [abs_le] at e1 hq ⊢
    norm_num at e1 hq ⊢
    constructor <;> linarith
  have e2 := unmarshal_err hr
  have e3 : |((unmarshalTime (float64 q) : Int) : Rat) - q * 1000000000| < 1000 := by
    rw [abs_le] at e1
    rw [abs_lt] at e2 ⊢
    norm_num at e1 e2 ⊢
    constructor <;> linarith
  refine ⟨e3, ?_⟩
  have : unmarshalTime (float64 q) ≠ Time.zero := by
    intro e
    rw [e] at e3
    unfold Time.zero at e3
    rw [abs_lt] at e3
    norm_num at e3
    linarith
  simpa [Time.isZero] using this

/-- The check of the times, if none is the zero time. -/
theorem verifyTime_iff {now iat : Time} {exp : Option Time} (hi : iat.isZero = false) (he : ∀ e, exp = some e → e.isZero = false) :
    verifyTime now (some iat) exp = true ↔ (iat : Int) ≤ now ∧ ∀ e, exp = some e → (now : Int) ≤ e := by
  unfold verifyTime
  simp only [hi]
  cases exp with
  | none => simp
  | some e =>
    simp only [he e rfl]
    have a : ∀ x y : Int, decide (x < y) = !decide (y ≤ x) := by intro x y; by_cases h : x < y <;> simp [h] <;> omega
    rw [a now iat, a e now]
    by_cases h1 : (iat : Int) ≤ now <;> by_cases h2 : (now : Int) ≤ e <;> simp [h1, h2]

end Oidfed
