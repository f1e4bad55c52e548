import Mathlib.Logic.Function.Iterate
import Mathlib.Data.Int.Basic

/-
One round of the two iterations of the reference model of the stable curve, the Python file
`sim/simulation.py`, for two tokens at equal prices, on integers of any size.  `L` is its `Ann`.
-/

namespace Verif
namespace Spec

/-- The body of the loop in `D`, sim/simulation.py l.51-55. -/
def roundD (L x y d : ℤ) : ℤ :=
  let p := d * d / (2 * x + 1) * d / (2 * y + 1)
  (L * (x + y) + 2 * p) * d / ((L - 1) * d + 3 * p)

/-- The body of the loop in `y`, sim/simulation.py l.89-90. -/
def roundY (b c y : ℤ) : ℤ := (y ^ 2 + c) / (2 * y + b)

/-- `y` is the solution of `y² + b·y = c`, rounded down. -/
def RootOf (b c y : ℤ) : Prop := y ^ 2 + b * y ≤ c ∧ c < (y + 1) ^ 2 + b * (y + 1)

end Spec
end Verif
