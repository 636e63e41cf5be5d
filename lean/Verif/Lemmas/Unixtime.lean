import Mathlib.Tactic.Linarith
import Mathlib.Tactic.Positivity
import Mathlib.Tactic.NormNum
import Mathlib.Tactic.FieldSimp
import Mathlib.Tactic.Ring
import Verif.Model.Unixtime
import Verif.Lemmas.Int64
/-!
# Facts about `float64` rounding
-/

namespace Oidfed

theorem nearestEven_int (n : ℤ) : nearestEven (n : ℚ) = n := by
  unfold nearestEven
  simp

theorem nearestEven_err (x : ℚ) : |(nearestEven x : ℚ) - x| ≤ 1 / 2 := by
  have h1 := Int.floor_le x
  have h2 := Int.lt_floor_add_one x
  unfold nearestEven
  simp only
  rw [abs_le]
  split
  · constructor <;> linarith
  · split
    · push_cast; constructor <;> linarith
    · split
      · constructor <;> linarith
      · push_cast; constructor <;> linarith

theorem two_zpow_pos (k : ℤ) : (0 : ℚ) < 2 ^ k := zpow_pos (by norm_num) k

theorem lastPlace_spec {x : ℚ} (hx : x ≠ 0) : (2 : ℚ) ^ (lastPlace x + 52) ≤ |x| ∧ |x| < 2 ^ (lastPlace x + 53) := by
  have h : (0 : ℚ) < |x| := abs_pos.mpr hx
  have h1 := Int.zpow_log_le_self (b := 2) (by norm_num) h
  have h2 := Int.lt_zpow_succ_log_self (b := 2) (by norm_num) |x|
  unfold lastPlace
  constructor
  · have : Int.log 2 |x| - 52 + 52 = Int.log 2 |x| := by ring
    rw [this]; exact_mod_cast h1
  · have : Int.log 2 |x| - 52 + 53 = Int.log 2 |x| + 1 := by ring
    rw [this]; exact_mod_cast h2

theorem lastPlace_unique {x : ℚ} {k : ℤ} (h1 : (2 : ℚ) ^ (k + 52) ≤ |x|) (h2 : |x| < 2 ^ (k + 53)) : lastPlace x = k := by
  have hx : x ≠ 0 := by
    intro h; subst h
    have := two_zpow_pos (k + 52)
    simp at h1; linarith
  obtain ⟨h3, h4⟩ := lastPlace_spec hx
  have a := (zpow_lt_zpow_iff_right₀ (a := (2 : ℚ)) (by norm_num)).mp (lt_of_le_of_lt h1 h4)
  have b := (zpow_lt_zpow_iff_right₀ (a := (2 : ℚ)) (by norm_num)).mp (lt_of_le_of_lt h3 h2)
  omega

/-- The rounding error is at most half a unit in the last place. -/
theorem float64_err (x : ℚ) : |float64 x - x| ≤ |x| / 2 ^ 53 := by
  unfold float64
  split
  · rename_i h; subst h; simp
  · rename_i hx
    obtain ⟨h1, h2⟩ := lastPlace_spec hx
    have hp := two_zpow_pos (lastPlace x)
    have he := nearestEven_err (x / 2 ^ lastPlace x)
    have : (nearestEven (x / 2 ^ lastPlace x) : ℚ) * 2 ^ lastPlace x - x =
        (nearestEven (x / 2 ^ lastPlace x) - x / 2 ^ lastPlace x) * 2 ^ lastPlace x := by
      field_simp
    rw [this, abs_mul, abs_of_pos hp]
    rw [zpow_add₀ (by norm_num : (2 : ℚ) ≠ 0)] at h1
    have h3 : |(nearestEven (x / 2 ^ lastPlace x) : ℚ) - x / 2 ^ lastPlace x| * 2 ^ lastPlace x ≤ 1 / 2 * 2 ^ lastPlace x :=
      mul_le_mul_of_nonneg_right he hp.le
    rw [le_div_iff₀ (by positivity)]
    have h52 : ((2 : ℚ) ^ (52 : ℤ)) = 2 ^ 52 := by norm_num
    rw [h52] at h1
    have h53 : (2 : ℚ) ^ 53 = 2 * 2 ^ 52 := by norm_num
    rw [h53]
    nlinarith

/-- Numbers with at most 53 binary digits are not changed. -/
theorem float64_exact {x : ℚ} {m k : ℤ} (hx : x = m * 2 ^ k) (hm : |m| ≤ 2 ^ 53) : float64 x = x := by
  unfold float64
  split
  · rename_i h; exact h.symm
  · rename_i h0
    by_cases hm' : |m| = 2 ^ 53
    · -- x = ±2^(k+53)
      have hlp : lastPlace x = k + 1 := by
        apply lastPlace_unique
        · rw [hx, abs_mul, abs_of_pos (two_zpow_pos k)]
          have : |(m : ℚ)| = 2 ^ 53 := by rw [← Int.cast_abs, hm']; norm_num
          rw [this]
          rw [show k + 1 + 52 = k + 53 by ring, zpow_add₀ (by norm_num : (2 : ℚ) ≠ 0)]
          norm_num
          linarith
        · rw [hx, abs_mul, abs_of_pos (two_zpow_pos k)]
          have : |(m : ℚ)| = 2 ^ 53 := by rw [← Int.cast_abs, hm']; norm_num
          rw [this]
          rw [show k + 1 + 53 = k + 54 by ring, zpow_add₀ (by norm_num : (2 : ℚ) ≠ 0)]
          have := two_zpow_pos k
          norm_num
          linarith
      have h2 : ∃ m', m = 2 * m' := by
        rcases abs_choice m with h | h
        · exact ⟨2 ^ 52, by rw [← h, hm']; norm_num⟩
        · exact ⟨-2 ^ 52, by have : m = -|m| := by rw [h]; ring
                             rw [this, hm']; norm_num⟩
      obtain ⟨m', rfl⟩ := h2
      rw [hlp]
      have e : x / 2 ^ (k + 1) = (m' : ℚ) := by
        rw [hx, zpow_add₀ (by norm_num : (2 : ℚ) ≠ 0)]
        have := (two_zpow_pos k).ne'
        push_cast
        field_simp
      rw [e, nearestEven_int, ← e]
      have := (two_zpow_pos (k + 1)).ne'
      field_simp
    · have hm2 : |m| < 2 ^ 53 := lt_of_le_of_ne hm hm'
      have hk : lastPlace x ≤ k := by
        have h1 := (lastPlace_spec h0).1
        have h2 : |x| < 2 ^ (k + 53) := by
          rw [hx, abs_mul, abs_of_pos (two_zpow_pos k), zpow_add₀ (by norm_num : (2 : ℚ) ≠ 0), mul_comm]
          apply mul_lt_mul_of_pos_left _ (two_zpow_pos k)
          rw [← Int.cast_abs]
          have : ((|m| : ℤ) : ℚ) < ((2 ^ 53 : ℤ) : ℚ) := by exact_mod_cast hm2
          norm_num at this ⊢
          exact this
        have := (zpow_lt_zpow_iff_right₀ (a := (2 : ℚ)) (by norm_num)).mp (lt_of_le_of_lt h1 h2)
        omega
      obtain ⟨j, hj⟩ := Int.eq_ofNat_of_zero_le (show 0 ≤ k - lastPlace x by omega)
      have e : x / 2 ^ lastPlace x = ((m * 2 ^ j : ℤ) : ℚ) := by
        have : k = lastPlace x + j := by omega
        have hp := (two_zpow_pos (lastPlace x)).ne'
        rw [div_eq_iff hp]
        conv_lhs => rw [hx, this]
        rw [zpow_add₀ (by norm_num : (2 : ℚ) ≠ 0), zpow_natCast]
        push_cast
        ring
      rw [e, nearestEven_int, ← e]
      have hp := (two_zpow_pos (lastPlace x)).ne'
      field_simp

/-- Computing a rounding: which digits are kept is determined by the magnitude. -/
theorem float64_eq {x : ℚ} {k : ℤ} (h1 : (2 : ℚ) ^ (k + 52) ≤ |x|) (h2 : |x| < 2 ^ (k + 53)) :
    float64 x = nearestEven (x / 2 ^ k) * 2 ^ k := by
  have hx : x ≠ 0 := by
    intro h; subst h
    have := two_zpow_pos (k + 52)
    simp at h1; linarith
  unfold float64
  rw [if_neg hx, lastPlace_unique h1 h2]

theorem float64_int {n : ℤ} (h : |n| ≤ 2 ^ 53) : float64 n = n := float64_exact (m := n) (k := 0) (by simp) h

theorem truncZ_int (n : ℤ) : truncZ (n : ℚ) = n := by
  unfold truncZ; split <;> simp

theorem truncZ_err (x : ℚ) : |(truncZ x : ℚ) - x| < 1 := by
  unfold truncZ
  rw [abs_lt]
  split
  · have h1 := Int.floor_le x
    have h2 := Int.lt_floor_add_one x
    constructor <;> linarith
  · have h1 := Int.le_ceil x
    have h2 := Int.ceil_lt_add_one x
    constructor <;> linarith

/-- A whole number of seconds keeps its value when divided. -/
theorem seconds_exact {s : ℤ} (h : |s * second| ≤ 2 ^ 62) : float64 (float64 (s * second : ℤ) / 10 ^ 9) = s := by
  unfold second at *
  have h1 : |s * 1953125| ≤ 2 ^ 53 := by
    rw [abs_mul] at h ⊢
    norm_num at h ⊢
    omega
  have h2 : |s| ≤ 2 ^ 53 := by
    rw [abs_mul] at h1
    norm_num at h1 ⊢
    have := abs_nonneg s
    omega
  have e : float64 ((s * 1000000000 : ℤ) : ℚ) = (s * 1000000000 : ℤ) := by
    apply float64_exact (m := s * 1953125) (k := 9) _ h1
    push_cast
    ring
  rw [e]
  have : ((s * 1000000000 : ℤ) : ℚ) / 10 ^ 9 = s := by push_cast; norm_num
  rw [this]
  exact float64_int h2

theorem not_isZero_of_range {t : Time} (h : |t| ≤ 2 ^ 62) : t.isZero = false := by
  unfold Time.isZero
  have : t ≠ Time.zero := by
    intro e
    rw [e] at h
    exact absurd h (by decide)
  simpa using this

theorem wrap64_range {t : ℤ} (h : |t| ≤ 2 ^ 62) : wrap64 t = t := by
  have := abs_le.mp h
  norm_num at this
  exact wrap64_id (by omega) (by omega)

theorem toInt64_eq {x : ℚ} (h : |x| ≤ 2 ^ 62) : toInt64 x = truncZ x := by
  have h1 := abs_lt.mp (truncZ_err x)
  have h2 := abs_le.mp h
  norm_num at h2
  have a1 : (-9223372036854775808 : ℚ) ≤ (truncZ x : ℚ) := by linarith
  have a2 : (truncZ x : ℚ) ≤ 9223372036854775807 := by linarith
  unfold toInt64
  rw [if_pos ⟨by exact_mod_cast a1, by exact_mod_cast a2⟩]

theorem toInt64_int {n : ℤ} (h : |n| ≤ 2 ^ 62) : toInt64 n = n := by
  rw [toInt64_eq (by rw [← Int.cast_abs]; exact_mod_cast h), truncZ_int]

theorem sec_range {s : ℤ} (h : |s * second| ≤ 2 ^ 62) : |s| ≤ 2 ^ 61 := by
  unfold second at h
  rw [abs_mul] at h
  norm_num at h ⊢
  omega

/-- A whole number of seconds is read as it is. -/
theorem duration_int {s : ℤ} (h : |s * second| ≤ 2 ^ 62) : wrap64 (toInt64 s * second) = s * second := by
  rw [toInt64_int (le_trans (sec_range h) (by norm_num)), wrap64_range h]

theorem timeUnix_eq {s n : ℤ} (h : |s| ≤ 2 ^ 62) : timeUnix s n = s * second + n := by
  have := abs_le.mp h
  norm_num at this
  unfold timeUnix
  rw [wrap64_id (by omega) (by omega)]
  ring

/-- Within the range of 64 bits, reading is adding the nanoseconds to the seconds. -/
theorem unmarshalTime_eq {f : ℚ} (h : |f| ≤ 2 ^ 61) :
    unmarshalTime f = truncZ f * second + truncZ (float64 ((f - truncZ f) * 10 ^ 9)) := by
  have h1 := abs_lt.mp (truncZ_err f)
  have h2 := abs_le.mp h
  norm_num at h2
  have hs : |truncZ f| ≤ 2 ^ 62 := by
    have a1 : (-(2 ^ 62) : ℚ) ≤ (truncZ f : ℚ) := by norm_num; linarith
    have a2 : (truncZ f : ℚ) ≤ 2 ^ 62 := by norm_num; linarith
    exact abs_le.mpr ⟨by exact_mod_cast a1, by exact_mod_cast a2⟩
  have hd : |float64 ((f - truncZ f) * 10 ^ 9)| ≤ 2 ^ 62 := by
    have e1 := float64_err ((f - truncZ f) * 10 ^ 9)
    have e2 : |(f - truncZ f) * 10 ^ 9| ≤ 10 ^ 9 := by
      rw [abs_mul, show |(10 : ℚ) ^ 9| = 10 ^ 9 by norm_num]
      have : |f - (truncZ f : ℚ)| < 1 := by rw [abs_sub_comm]; exact truncZ_err f
      have := mul_le_mul_of_nonneg_right this.le (by norm_num : (0 : ℚ) ≤ 10 ^ 9)
      linarith
    have e3 := abs_sub_abs_le_abs_sub (float64 ((f - truncZ f) * 10 ^ 9)) ((f - truncZ f) * 10 ^ 9)
    have e4 : |(f - (truncZ f : ℚ)) * 10 ^ 9| / 2 ^ 53 ≤ 1 := by
      rw [div_le_iff₀ (by positivity)]
      norm_num at e2 ⊢
      linarith
    norm_num at e2 ⊢
    norm_num at e1 e3 e4
    linarith
  unfold unmarshalTime
  simp only
  rw [toInt64_int hs, toInt64_eq hd, timeUnix_eq hs]

/-- A whole number of seconds is read as it is. -/
theorem unmarshalTime_int {s : ℤ} (h : |s| ≤ 2 ^ 61) : unmarshalTime s = s * second := by
  rw [unmarshalTime_eq (by rw [← Int.cast_abs]; exact_mod_cast h), truncZ_int,
    show ((s : ℚ) - s) * 10 ^ 9 = ((0 : ℤ) : ℚ) by push_cast; ring, float64_int (by norm_num), truncZ_int]
  simp

theorem marshal_err {t : Time} (h : |t| ≤ 2 ^ 62) : |marshalTime t * 10 ^ 9 - (t : ℤ)| ≤ 520 + 520 := by
  unfold marshalTime
  rw [not_isZero_of_range h]
  simp only [Bool.false_eq_true, if_false]
  rw [wrap64_range h]
  have h0 : |((t : ℤ) : ℚ)| ≤ 2 ^ 62 := by rw [← Int.cast_abs]; exact_mod_cast h
  have e1 := float64_err ((t : ℤ) : ℚ)
  have e1' : |float64 ((t : ℤ) : ℚ) - (t : ℤ)| ≤ 512 := by
    refine e1.trans ?_
    rw [div_le_iff₀ (by positivity)]
    norm_num at h0 ⊢
    linarith
  set a := float64 ((t : ℤ) : ℚ)
  have ha : |a| ≤ 2 ^ 62 + 512 := by
    have := abs_sub_abs_le_abs_sub a ((t : ℤ) : ℚ)
    linarith
  have e2 := float64_err (a / 10 ^ 9)
  rw [abs_div] at e2
  have hpos : |(10 : ℚ) ^ 9| = 10 ^ 9 := by norm_num
  rw [hpos] at e2
  have e2' : |float64 (a / 10 ^ 9) * 10 ^ 9 - a| ≤ 520 := by
    have : float64 (a / 10 ^ 9) * 10 ^ 9 - a = (float64 (a / 10 ^ 9) - a / 10 ^ 9) * 10 ^ 9 := by ring
    rw [this, abs_mul, hpos]
    calc _ ≤ (|a| / 10 ^ 9 / 2 ^ 53) * 10 ^ 9 := mul_le_mul_of_nonneg_right e2 (by positivity)
      _ = |a| / 2 ^ 53 := by ring
      _ ≤ 520 := by rw [div_le_iff₀ (by positivity)]; norm_num at ha ⊢; linarith
  have tri := abs_add_le (float64 (a / 10 ^ 9) * 10 ^ 9 - a) (a - (t : ℤ))
  have : float64 (a / 10 ^ 9) * 10 ^ 9 - a + (a - ((t : ℤ) : ℚ)) = float64 (a / 10 ^ 9) * 10 ^ 9 - (t : ℤ) := by ring
  rw [this] at tri
  linarith

theorem unmarshal_err {f : ℚ} (h : |f| ≤ 2 ^ 61) : |((unmarshalTime f : ℤ) : ℚ) - f * 10 ^ 9| < 2 := by
  rw [unmarshalTime_eq h]
  unfold second
  have h1 := truncZ_err f
  set s := truncZ f
  set d := f - (s : ℚ) with hd
  have hd1 : |d| < 1 := by rw [hd, abs_sub_comm]; exact h1
  have h2 := float64_err (d * 10 ^ 9)
  have h3 : |float64 (d * 10 ^ 9) - d * 10 ^ 9| < 1 := by
    refine lt_of_le_of_lt h2 ?_
    rw [abs_mul, div_lt_iff₀ (by positivity)]
    have : |(10 : ℚ) ^ 9| = 10 ^ 9 := by norm_num
    rw [this]
    norm_num
    linarith
  have h4 := truncZ_err (float64 (d * 10 ^ 9))
  rw [abs_lt] at h3 h4 ⊢
  push_cast
  have : f * 10 ^ 9 = s * 10 ^ 9 + d * 10 ^ 9 := by rw [hd]; ring
  rw [this]
  norm_num at *
  constructor <;> linarith

end Oidfed
