import Mathlib.Data.Rat.Defs
import Mathlib.Algebra.Order.Field.Rat

/-
Specification vocabulary for fixed-point numbers, independent of the model.
-/

namespace Verif
namespace Spec

/-- The rational number denoted by a raw 18-decimal fixed-point integer. -/
def val (raw : Nat) : ℚ := (raw : ℚ) / 10 ^ 18

end Spec
end Verif
