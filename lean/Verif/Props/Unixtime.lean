import Verif.Lemmas.Unixtime
/-!
# Properties of the JSON form of times and durations (C57)
-/

namespace Oidfed

/-- C57 is false for the zero time: it is written as 0 and read back as 1 January 1970, which then counts as given and long past. -/
theorem C57_zero_time_refuted : unmarshalTime (marshalTime Time.zero) ≠ Time.zero ∧
    ∀ now : Time, 0 < now → verifyTime now none (some Time.zero) = true ∧
      verifyTime now none (some (unmarshalTime (marshalTime Time.zero))) = false := by
  have h : unmarshalTime (marshalTime Time.zero) = 0 := by
    have h0 : marshalTime Time.zero = ((0 : ℤ) : ℚ) := by
      unfold marshalTime; rw [if_pos (by decide)]; rfl
    rw [h0, unmarshalTime_int (by norm_num)]
    rfl
  rw [h]
  refine ⟨by decide, fun now hn => ⟨?_, ?_⟩⟩
  · simp [verifyTime, Time.isZero]
  · have : (Time.isZero 0) = false := by decide
    simp [verifyTime, this, hn]

/-- C57 is false for late times: one second of the year 2116 is read back as another instant. -/
theorem C57_late_time_refuted : ∃ s : ℤ, 0 < s ∧ s * second < 2 ^ 63 ∧ unmarshalTime (marshalTime (s * second)) ≠ s * second := by
  refine ⟨4611686019, by decide, by decide, ?_⟩
  have h1 : marshalTime (4611686019 * second) = 4611686019 + 1 / 2 ^ 20 := by
    unfold marshalTime
    rw [if_neg (by decide)]
    have e : ((wrap64 (4611686019 * second) : ℤ) : ℚ) = 4611686019000000000 := by
      rw [show wrap64 (4611686019 * second) = 4611686019000000000 by decide]; norm_num
    rw [e]
    have f1 : float64 4611686019000000000 = 4611686019000000512 := by
      rw [float64_eq (k := 10) (by norm_num [abs_of_pos]) (by norm_num [abs_of_pos])]
      have h : (4611686019000000000 : ℚ) / 2 ^ (10 : ℤ) = 4503599627929687 + 1 / 2 := by norm_num
      have hf : ⌊(4503599627929687 + 1 / 2 : ℚ)⌋ = 4503599627929687 := by
        rw [Int.floor_eq_iff]; norm_num
      rw [h]
      unfold nearestEven
      rw [hf]
      norm_num
    rw [f1, float64_eq (k := -20) (by norm_num [abs_of_pos]) (by norm_num [abs_of_pos])]
    have hf : ⌊(4611686019000000512 / 10 ^ 9 / 2 ^ (-20 : ℤ) : ℚ)⌋ = 4611686019 * 1048576 := by
      rw [Int.floor_eq_iff]; norm_num
    unfold nearestEven
    rw [hf]
    norm_num
  rw [h1]
  have h2 : truncZ (4611686019 + 1 / 2 ^ 20) = 4611686019 := by
    unfold truncZ
    rw [if_pos (by norm_num), Int.floor_eq_iff]; norm_num
  rw [unmarshalTime_eq (by norm_num [abs_of_pos]), h2]
  have h3 : float64 ((4611686019 + 1 / 2 ^ 20 - ((4611686019 : ℤ) : ℚ)) * 10 ^ 9) = 1953125 / 2048 := by
    have : (4611686019 + 1 / 2 ^ 20 - ((4611686019 : ℤ) : ℚ)) * 10 ^ 9 = (1953125 : ℤ) * 2 ^ (-11 : ℤ) := by norm_num
    rw [float64_exact this (by decide)]
    norm_num
  have h4 : truncZ (float64 ((4611686019 + 1 / 2 ^ 20 - ((4611686019 : ℤ) : ℚ)) * 10 ^ 9)) = 953 := by
    rw [h3]
    unfold truncZ
    rw [if_pos (by norm_num), Int.floor_eq_iff]; norm_num
  rw [h4]
  decide

/-- C57 for instants: a whole second between 1823 and 2116 is read back exactly. -/
theorem C57_whole_seconds_partial (s : ℤ) (h : |s * second| ≤ 2 ^ 62) : unmarshalTime (marshalTime (s * second)) = s * second := by
  have h1 : marshalTime (s * second) = s := by
    unfold marshalTime
    rw [if_neg (by rw [not_isZero_of_range h]; decide)]
    rw [wrap64_range h]
    exact seconds_exact h
  rw [h1, unmarshalTime_int (sec_range h)]

example : |(1763352000 : ℤ) * second| ≤ 2 ^ 62 := by decide

/-- C57 for any instant between 1823 and 2116: what is read back differs by less than two microseconds. -/
theorem C57_precision_partial (t : Time) (h : |t| ≤ 2 ^ 62) : |unmarshalTime (marshalTime t) - t| < 2000 := by
  have h1 := marshal_err h
  have hr : |marshalTime t| ≤ 2 ^ 61 := by
    have a : |(t : ℚ)| ≤ 2 ^ 62 := by rw [← Int.cast_abs]; exact_mod_cast h
    rw [abs_le] at h1 a ⊢
    norm_num at a ⊢
    constructor <;> linarith
  have h2 := unmarshal_err hr
  have h3 : |((unmarshalTime (marshalTime t) - t : ℤ) : ℚ)| < 2000 := by
    rw [abs_le] at h1
    rw [abs_lt] at h2 ⊢
    push_cast
    constructor <;> linarith
  exact_mod_cast h3

example : |(1763352000123456789 : ℤ)| ≤ 2 ^ 62 := by decide

/-- C57 is false for durations: one and a half seconds are read back as one. -/
theorem C57_duration_refuted : unmarshalDuration (marshalDuration 1500000000) = 1000000000 := by
  have h : marshalDuration 1500000000 = 3 / 2 := by
    unfold marshalDuration
    rw [float64_int (by decide)]
    exact float64_exact (m := 3) (k := -1) (by norm_num) (by decide) |>.trans (by norm_num)
  rw [h]
  unfold unmarshalDuration
  rw [toInt64_eq (by norm_num [abs_of_pos])]
  unfold truncZ
  rw [if_pos (by norm_num), show ⌊(3 / 2 : ℚ)⌋ = 1 by rw [Int.floor_eq_iff]; norm_num]
  decide

/-- C57 for durations: whole seconds (up to 146 years) are read back exactly. -/
theorem C57_whole_durations_partial (s : ℤ) (h : |s * second| ≤ 2 ^ 62) : unmarshalDuration (marshalDuration (s * second)) = s * second := by
  unfold unmarshalDuration marshalDuration
  rw [seconds_exact h, duration_int h]

/-- C57 for durations given in code: a whole number of seconds is taken as such. -/
theorem C57_new_duration_partial (s : ℤ) (h : |s * second| ≤ 2 ^ 62) : newDurationInSeconds s = s * second := by
  unfold newDurationInSeconds
  have h1 : |s * 1953125| ≤ 2 ^ 53 := by
    unfold second at h
    rw [abs_mul] at h ⊢
    norm_num at h ⊢
    omega
  have e : (s : ℚ) * 10 ^ 9 = ((s * second : ℤ) : ℚ) := by unfold second; push_cast; norm_num
  rw [e, float64_exact (m := s * 1953125) (k := 9) (by unfold second; push_cast; ring) h1, toInt64_int h]

example : |(86400 : ℤ) * second| ≤ 2 ^ 62 := by decide

end Oidfed
