import Verif.Spec.Steep

/-
Specification vocabulary for C60 when the B vault may be emptied.
-/

namespace Verif
namespace Spec

/-- As `Steep`, with `10^-16` in place of `10^-17`. -/
def Steeper (c : LinearPriceCurve) : Prop :=
  1 / 10 ^ 32 ≤ slope c ^ 2 * (price c ^ 2 + 2 * slope c)

/-- By the exact curve, the last of the pool's `B0` token B starts at a price of at least two units of
token A. -/
def Dear (c : LinearPriceCurve) (B0 : Nat) : Prop := 2 ≤ slope c * ((B0 : ℚ) - 1) + price c

/-- By the exact curve, the price when all of the pool's `B0` token B are out is at most 7/10 of a unit of
token A. -/
def Cheap (c : LinearPriceCurve) (B0 : Nat) : Prop := slope c * (B0 : ℚ) + price c ≤ 7 / 10

end Spec
end Verif
