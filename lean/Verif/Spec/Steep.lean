import Verif.Spec.Linear

/-
Specification vocabulary for C03, C60 and C70: curves steep enough for the rounding of the fixed-point
arithmetic not to matter.
-/

namespace Verif
namespace Spec

/-- The slope times the curve's price once one unit of token A is locked, `√(price² + 2·slope)`, is at
least `10^-17` (both sides squared). -/
def Steep (c : LinearPriceCurve) : Prop :=
  1 / 10 ^ 34 ≤ slope c ^ 2 * (price c ^ 2 + 2 * slope c)

instance (c : LinearPriceCurve) : Decidable (Steep c) := by
  unfold Steep; infer_instance

end Spec
end Verif
