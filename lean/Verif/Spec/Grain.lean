import Verif.Spec.Position

/-
Specification vocabulary for C97: how far the rounding of the fixed-point arithmetic can move the position
on a curve with arbitrary parameters.
-/

namespace Verif
namespace Spec

/-- The effect on the position of an error of `10^-18` in the starting price. -/
noncomputable def notch (c : LinearPriceCurve) : ℝ := 1 / (10 ^ 18 * (slope c : ℝ))

/-- The effect on the position of an error of `10·10^-18` in the square of the marginal price. -/
noncomputable def grain (c : LinearPriceCurve) (A : Nat) : ℝ :=
  5 / (10 ^ 18 * (slope c : ℝ) * marginal c A)

end Spec
end Verif
