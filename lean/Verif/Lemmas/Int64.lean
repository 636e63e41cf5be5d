import Verif.Model.Basic
/-! `int64` arithmetic. -/

namespace Oidfed

theorem wrap64_id {x : Int} (h1 : -9223372036854775808 ≤ x) (h2 : x ≤ 9223372036854775807) : wrap64 x = x := by
  unfold wrap64
  omega

end Oidfed
