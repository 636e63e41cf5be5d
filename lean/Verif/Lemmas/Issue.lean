import Verif.Lemmas.TrustMark
import Verif.Lemmas.JSONObject
import Verif.Lemmas.Unixtime
/-!
# Facts about issuing trust marks and delegations
-/

namespace Oidfed
open Spec

theorem nearestEven_le {x : ℚ} {n : ℤ} (h : |x| ≤ n) : |nearestEven x| ≤ n := by
  rw [abs_le] at h ⊢
  have h1 := Int.floor_le x
  have h2 := Int.lt_floor_add_one x
  have hlow : -n ≤ ⌊x⌋ := by
    rw [Int.le_floor]; push_cast; exact h.1
  have hup : ⌊x⌋ ≤ n := by
    have : (⌊x⌋ : ℚ) ≤ n := h1.trans h.2
    exact_mod_cast this
  unfold nearestEven
  simp only
  have hup2 : 0 < x - ⌊x⌋ → ⌊x⌋ + 1 ≤ n := by
    intro hp
    have : (⌊x⌋ : ℚ) < n := by linarith [h.2]
    have : ⌊x⌋ < n := by exact_mod_cast this
    omega
  split
  · exact ⟨hlow, hup⟩
  · rename_i hr
    have hpos : 0 < x - ⌊x⌋ := by linarith
    have := hup2 hpos
    split
    · constructor <;> omega
    · split <;> constructor <;> omega

theorem float64_idem (x : ℚ) : float64 (float64 x) = float64 x := by
  by_cases hx : x = 0
  · subst hx; simp [float64]
  · have h : float64 x = nearestEven (x / 2 ^ lastPlace x) * 2 ^ lastPlace x := by unfold float64; rw [if_neg hx]
    have hpos : (0 : ℚ) < 2 ^ lastPlace x := zpow_pos (by norm_num) _
    have habs : |x / 2 ^ lastPlace x| ≤ ((2 ^ 53 : ℤ) : ℚ) := by
      rw [abs_div, abs_of_pos hpos, div_le_iff₀ hpos]
      have := (Int.lt_zpow_succ_log_self (b := 2) (by norm_num) |x|).le
      refine this.trans ?_
      unfold lastPlace
      push_cast
      rw [show (9007199254740992:ℚ) = 2 ^ (53 : ℤ) by norm_num, ← zpow_add₀ (by norm_num)]
      apply le_of_eq
      congr 1
      ring
    have hm := nearestEven_le habs
    rw [float64_exact h hm]

theorem read_time (t : Time) : unmarshalTime (float64 (marshalTime t)) = unmarshalTime (marshalTime t) := by
  have : float64 (marshalTime t) = marshalTime t := by
    unfold marshalTime
    split
    · simp [float64]
    · exact float64_idem _
  rw [this]

theorem strOf_omitEmpty (s : String) : strOf (omitEmpty s) = s := by
  unfold omitEmpty
  split
  · rename_i h; simp [strOf, h]
  · rfl

theorem tmDec_str {t : String} (h1 : t ≠ "iat") (h2 : t ≠ "exp") (s : String) : tmDec t none (.str s) = some (some (.str s)) := by
  unfold tmDec
  rw [if_neg h1, if_neg h2]
  rfl

theorem omitEmpty_some {s : String} {v : JV} (h : omitEmpty s = some v) : v = .str s := by
  unfold omitEmpty at h
  split at h
  · cases h
  · cases h; rfl

/-- The claims that are read from an issued trust mark. -/
theorem markStruct_read (iss sub type : String) (iat : Time) (exp : Option Time) (logo ref delegation : String) (extra : AMap JV)
    (he : extra.WF) (hx : ∀ k ∈ extra.keys, ∀ t ∈ markTags, Apart t k) (raw : Nat) :
    (unmarshalObj markTags tmDec (marshalObj markTags (markStruct iss sub type iat exp logo ref delegation extra))).map (readMark raw) =
      some ⟨iss, sub, type, unmarshalTime (marshalTime iat), exp.map (fun e => unmarshalTime (marshalTime e)), delegation, some raw,
        none⟩ := by
  obtain ⟨o', h1, h2, _⟩ := obj_roundtrip (tags := markTags) (by decide) tmDec
    (markStruct iss sub type iat exp logo ref delegation extra) he hx
    (by
      intro t ht
      simp only [markTags, List.mem_cons, List.not_mem_nil, or_false, not_or] at ht
      simp [markStruct, ht])
    (by
      intro t ht v hv
      simp only [markTags, List.mem_cons, List.not_mem_nil, or_false] at ht
      rcases ht with rfl | rfl | rfl | rfl | rfl | rfl | rfl | rfl <;> simp only [markStruct] at hv
      · cases hv; exact tmDec_str (by decide) (by decide) _
      · cases hv; exact tmDec_str (by decide) (by decide) _
      · cases hv; exact tmDec_str (by decide) (by decide) _
      · cases hv; rfl
      · have := omitEmpty_some hv; subst this; exact tmDec_str (by decide) (by decide) _
      · cases exp with
        | none => cases hv
        | some e => cases hv; rfl
      · have := omitEmpty_some hv; subst this; exact tmDec_str (by decide) (by decide) _
      · have := omitEmpty_some hv; subst this; exact tmDec_str (by decide) (by decide) _)
  rw [h1]
  simp only [Option.map_some, readMark, h2]
  congr 1
  have e1 : (markStruct iss sub type iat exp logo ref delegation extra).known "delegation" = omitEmpty delegation := rfl
  have e2 : (markStruct iss sub type iat exp logo ref delegation extra).known "iat" = some (.num (marshalTime iat)) := rfl
  have e3 : (markStruct iss sub type iat exp logo ref delegation extra).known "exp" = exp.map (fun e => .num (marshalTime e)) := rfl
  rw [e1, e2, e3, strOf_omitEmpty]
  simp only [timeOf, read_time]
  cases exp with
  | none => rfl
  | some e => simp only [Option.map_some, optTimeOf, read_time]; rfl

/-- The claims that are read from an issued delegation. -/
theorem delegStruct_read (iss sub type : String) (iat : Time) (exp : Option Time) (ref : String) (extra : AMap JV)
    (he : extra.WF) (hx : ∀ k ∈ extra.keys, ∀ t ∈ delegTags, Apart t k) (raw : Nat) :
    (unmarshalObj delegTags tmDec (marshalObj delegTags (delegStruct iss sub type iat exp ref extra))).map (readDelegation raw) =
      some ⟨iss, sub, type, unmarshalTime (marshalTime iat), exp.map (fun e => unmarshalTime (marshalTime e)), some raw⟩ := by
  obtain ⟨o', h1, h2, _⟩ := obj_roundtrip (tags := delegTags) (by decide) tmDec
    (delegStruct iss sub type iat exp ref extra) he hx
    (by
      intro t ht
      simp only [delegTags, List.mem_cons, List.not_mem_nil, or_false, not_or] at ht
      simp [delegStruct, ht])
    (by
      intro t ht v hv
      simp only [delegTags, List.mem_cons, List.not_mem_nil, or_false] at ht
      rcases ht with rfl | rfl | rfl | rfl | rfl | rfl <;> simp only [delegStruct] at hv
      · cases hv; exact tmDec_str (by decide) (by decide) _
      · cases hv; exact tmDec_str (by decide) (by decide) _
      · cases hv; exact tmDec_str (by decide) (by decide) _
      · cases hv; rfl
      · cases exp with
        | none => cases hv
        | some e => cases hv; rfl
      · have := omitEmpty_some hv; subst this; exact tmDec_str (by decide) (by decide) _)
  rw [h1]
  simp only [Option.map_some, readDelegation, h2]
  congr 1
  have e2 : (delegStruct iss sub type iat exp ref extra).known "iat" = some (.num (marshalTime iat)) := rfl
  have e3 : (delegStruct iss sub type iat exp ref extra).known "exp" = exp.map (fun e => .num (marshalTime e)) := rfl
  rw [e2, e3]
  simp only [timeOf, read_time]
  cases exp with
  | none => rfl
  | some e => simp only [Option.map_some, optTimeOf, read_time]; rfl

end Oidfed
