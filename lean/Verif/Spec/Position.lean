import Mathlib.Analysis.Real.Sqrt
import Verif.Spec.Linear

/-
The exact linear curve over the real numbers: where a pool holding `A` token A stands, and how far a
root with a relative error of `2^-30` can be off.
-/

namespace Verif
namespace Spec

/-- Exact cost of `b` token B over the reals. -/
noncomputable def costR (c : LinearPriceCurve) (b : ℝ) : ℝ :=
  (slope c : ℝ) / 2 * b ^ 2 + (price c : ℝ) * b

/-- Exact price of the next token B when `A` token A are locked. -/
noncomputable def marginal (c : LinearPriceCurve) (A : Nat) : ℝ :=
  √((price c : ℝ) ^ 2 + 2 * (slope c : ℝ) * A)

/-- Exact number of token B sold when `A` token A are locked: the solution of `costR c b = A`. -/
noncomputable def position (c : LinearPriceCurve) (A : Nat) : ℝ :=
  (marginal c A - (price c : ℝ)) / (slope c : ℝ)

/-- The effect on the position of an error of `2^-30` in the marginal price. -/
noncomputable def blur (c : LinearPriceCurve) (A : Nat) : ℝ :=
  marginal c A / (2 ^ 30 * (slope c : ℝ))

end Spec
end Verif
