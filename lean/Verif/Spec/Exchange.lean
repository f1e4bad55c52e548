import Mathlib.Order.Bounds.Basic
import Verif.Model.Curve

/-
Exact pricing of the value-based curves, written without reference to the way the program computes
it: fees, constant-product trades and constant-price trades.
-/

namespace Verif
namespace Spec

/-- Fee of `num/den` on `x`: rounded down, but at least one unit of a non-zero amount. -/
def feeOf (num den x : Nat) : Nat := if num = 0 ∨ x = 0 then 0 else max 1 (x * num / den)

/-- `t` taken and `d` paid is the constant-product trade of an offer of `s` against balances
`x` (source) and `y` (destination): the payment is `y·s/(x+s)` rounded down and not zero, and what is
taken is the least amount that pays for it.  Offers exceeding `x·y - x` are refused. -/
def ProductTrade (s x y t d : Nat) : Prop :=
  x + s ≤ x * y ∧ 0 < d ∧ d * (x + s) ≤ y * s ∧ y * s < (d + 1) * (x + s) ∧
    IsLeast {t | x * y ≤ (x + t) * (y - d)} t

/-- `t` taken and `d` paid is the constant-price trade of an offer of `s`, one token B for `p` token A:
token A are only taken in whole multiples of the price. -/
def PriceTrade (p s : Nat) (dir : TradeDirection) (t d : Nat) : Prop :=
  0 < t ∧ 0 < d ∧
    match dir with
    | .AtoB => t = p * d ∧ t ≤ s ∧ s < t + p
    | .BtoA => t = s ∧ d = p * s

/-- The result record of a trade with fees. -/
def settled (x y t d tradeFee ownerFee : Nat) : SwapResult :=
  ⟨x + (t + (tradeFee + ownerFee)), y - d, t + (tradeFee + ownerFee), d, tradeFee, ownerFee⟩

end Spec
end Verif
