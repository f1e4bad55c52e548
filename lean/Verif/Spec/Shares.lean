import Verif.Spec.Exchange
import Verif.Spec.Pools

/-
Exact pool-token conversions: division with explicit rounding.
-/

namespace Verif
namespace Spec

/-- `q` is `a/b` rounded down. -/
def Down (a b q : Nat) : Prop := q * b ≤ a ∧ a < (q + 1) * b

/-- `q` is `a/b` rounded up. -/
def Up (a b q : Nat) : Prop := a ≤ q * b ∧ q * b < a + b

/-- Rounded up, except that fractions below one become zero. -/
def UpWhole (a b q : Nat) : Prop := if a < b then q = 0 else Up a b q

instance (a b q : Nat) : Decidable (Down a b q) := by unfold Down; infer_instance
instance (a b q : Nat) : Decidable (Up a b q) := by unfold Up; infer_instance
instance (a b q : Nat) : Decidable (UpWhole a b q) := by unfold UpWhole; infer_instance

/-- The balances on which proportional curves (constant product, stable, offset) compute shares. -/
def shareBalances : Curve → Nat → Nat → Option (Nat × Nat)
  | .constantProduct, A, B => some (A, B)
  | .stable _, A, B => some (A, B)
  | .offset o, A, B => some (A, B + o.toNat)
  | _, _, _ => none

/-- Half the value of a constant-price pool, in token A, rounded down. -/
def halfWorth (p A B : Nat) : Nat := worth p A B / 2

/-- What counts of a single-sided deposit or withdrawal of `s`: all of it less the trade fee on half
of it (on one unit if half is zero). -/
def counted (f : Fees) (s : Nat) : Nat :=
  s - feeOf f.trade_fee_numerator.toNat f.trade_fee_denominator.toNat (max 1 (s / 2))

/-- The balance a single-sided operation of a square-root curve (constant product, offset) compares its
amount with: token A's for `AtoB`, token B's (with the offset) for `BtoA`. -/
def rootSide : Curve → TradeDirection → Nat → Nat → Option Nat
  | .constantProduct, .AtoB, A, _ => some A
  | .constantProduct, .BtoA, _, B => some B
  | .offset _, .AtoB, A, _ => some A
  | .offset o, .BtoA, _, B => some (B + o.toNat)
  | _, _, _, _ => none

/-- The two balances after adding `x` to the side named by the direction. -/
def grown : TradeDirection → Nat → Nat → Nat → Nat × Nat
  | .AtoB, x, A, B => (A + x, B)
  | .BtoA, x, A, B => (B + x, A)

/-- The two balances after taking `x` from the side named by the direction. -/
def shrunk : TradeDirection → Nat → Nat → Nat → Nat × Nat
  | .AtoB, x, A, B => (A - x, B)
  | .BtoA, x, A, B => (B - x, A)

end Spec
end Verif
