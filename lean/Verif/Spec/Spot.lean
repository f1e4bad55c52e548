import Verif.Spec.Position

/-
Specification vocabulary for C71 and C72: the price of a trade as the mean of two spot prices, and
one curve continuing another.
-/

namespace Verif
namespace Spec

/-- The mean of the exact spot prices with `A` and with `A'` token A locked. -/
noncomputable def meanPrice (c : LinearPriceCurve) (A A' : Nat) : ℝ :=
  (marginal c A + marginal c A') / 2

/-- `c'` has the slope of `c` and starts at the price `c` reaches after `N` token B. -/
def Continues (c c' : LinearPriceCurve) (N : Nat) : Prop :=
  slope c' = slope c ∧ price c' = price c + slope c * N

end Spec
end Verif
