import Verif.Model.Dfs

/-
Comparisons of `DFSPreciseNumber`s (dfs_precise_number.rs).
-/

namespace Verif
namespace Dfs

/-- `almost_eq`, dfs_precise_number.rs l.72-75. -/
def almostEq (a b precision : Nat) : Bool := decide ((unsignedSub a b).1 < precision)
/-- `less_than`, l.78-80. -/
def lessThan (a b : Nat) : Bool := decide (a < b)
/-- `greater_than`, l.83-85. -/
def greaterThan (a b : Nat) : Bool := decide (a > b)
/-- `less_than_or_equal`, l.88-90. -/
def lessThanOrEqual (a b : Nat) : Bool := decide (a ≤ b)
/-- `greater_than_or_equal`, l.93-95. -/
def greaterThanOrEqual (a b : Nat) : Bool := decide (a ≥ b)

end Dfs
end Verif
