import Mathlib.Data.Real.Basic

/-
The two-token stable curve `L·(x + y) + D = L·D + D³/(4xy)`, without divisions.
-/

namespace Verif
namespace Spec

/-- The invariant of balances `x`, `y` with leverage `L` is at least `D`.  The left-hand side of the
curve minus the right-hand side is decreasing in `D`, so this holds exactly up to the invariant. -/
def StableAtLeast (L x y D : ℝ) : Prop := D ^ 3 ≤ 4 * x * y * (L * (x + y - D) + D)

end Spec
end Verif
