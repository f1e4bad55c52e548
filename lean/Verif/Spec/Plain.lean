import Verif.Spec.Abort

/-
Pricing of linear pools in plain arithmetic on natural numbers: no intermediate results that may not
fit, no failing steps.  Amounts with a fractional part are in units of `10^-18`.
-/

namespace Verif
namespace Spec

/-- Quotient, rounded up or down. -/
def quotient (up : Bool) (a b : Nat) : Nat := if up then (a + b - 1) / b else a / b

/-- Integer square root, rounded up or down. -/
def intRoot (up : Bool) (n : Nat) : Nat :=
  if up ∧ Nat.sqrt n * Nat.sqrt n ≠ n then Nat.sqrt n + 1 else Nat.sqrt n

/-- Number of base-four digits. -/
def quads (v : Nat) : Nat := if v = 0 then 0 else Nat.log2 v / 2 + 1

/-- Square root of a number in units of `10^-18`: the number is scaled by a power of four to 32 base-four
digits, the integer root of that is taken and scaled back.  No result when scaling down, rounded up,
gives a 33rd digit. -/
def plainRoot (up : Bool) (v : Nat) : Option Nat :=
  if quads v ≤ 32 then
    some (quotient up (intRoot up (v * 4 ^ (32 - quads v)) * 10 ^ 9) (2 ^ (32 - quads v)))
  else if quotient up v (4 ^ (quads v - 32)) < 2 ^ 64 then
    some (intRoot up (quotient up v (4 ^ (quads v - 32))) * 10 ^ 9 * 2 ^ (quads v - 32))
  else none

/-- Position of a pool holding `A` token A: `(root - price) / slope`. -/
def plainPosition (c : LinearPriceCurve) (up : Bool) (A : Nat) : Option Nat :=
  (plainRoot up (rootArg c A)).map fun r =>
    (r - c.initial_token_a_price_numerator.toNat * 10 ^ 18 /
      c.initial_token_a_price_denominator.toNat) * c.slope_denominator.toNat /
      c.slope_numerator.toNat

/-- Token A locked at position `b`: `slope/2·b² + price·b`, the square rounded to the nearest, the
quotients rounded down. -/
def plainLocked (c : LinearPriceCurve) (b : Nat) : Nat :=
  (c.slope_numerator.toNat * b * b + 5 * 10 ^ 17) / 10 ^ 18 / (2 * c.slope_denominator.toNat) +
    c.initial_token_a_price_numerator.toNat * b / c.initial_token_a_price_denominator.toNat

/-- What comes of an offer. -/
inductive Outcome where
  /-- `taken` is taken and `paid` paid out. -/
  | trade (taken paid : Nat)
  | refused
  | aborted
  deriving DecidableEq

/-- Nothing is traded for nothing. -/
def Outcome.of (taken paid : Nat) : Outcome :=
  if taken = 0 ∨ paid = 0 then .refused else .trade taken paid

/-- `s` token A offered to a pool with `A` and `B` tokens at position `b0`.  If the rest of the pool costs
at most `s` (rounded to the nearest) it is sold for that, otherwise the whole offer is taken. -/
def plainBuyAt (c : LinearPriceCurve) (s A B b0 : Nat) : Outcome :=
  if A * 10 ^ 18 ≤ plainLocked c (b0 + B * 10 ^ 18) ∧
      (plainLocked c (b0 + B * 10 ^ 18) - A * 10 ^ 18 + 5 * 10 ^ 17) / 10 ^ 18 ≤ s then
    .of ((plainLocked c (b0 + B * 10 ^ 18) - A * 10 ^ 18 + 5 * 10 ^ 17) / 10 ^ 18) B
  else
    (plainPosition c false (A + s)).elim .aborted fun b1 => .of s ((b1 - b0) / 10 ^ 18)

/-- The same, from the position rounded up. -/
def plainBuy (c : LinearPriceCurve) (s A B : Nat) : Outcome :=
  (plainPosition c true A).elim .aborted (plainBuyAt c s A B)

/-- `s` token B offered to a pool with `A` token A at position `b0`.  More than the position buys all token
A for the position, rounded to the nearest; otherwise what is paid is what is no longer locked at the new
position, rounded up to a whole token. -/
def plainSellAt (c : LinearPriceCurve) (s A b0 : Nat) : Outcome :=
  if b0 < s * 10 ^ 18 then .of ((b0 + 5 * 10 ^ 17) / 10 ^ 18) A
  else if plainLocked c (quotient true (b0 - s * 10 ^ 18) (10 ^ 18) * 10 ^ 18) ≤ A * 10 ^ 18 then
    .of s ((A * 10 ^ 18 - plainLocked c (quotient true (b0 - s * 10 ^ 18) (10 ^ 18) * 10 ^ 18)) /
      10 ^ 18)
  else .refused

/-- The same, from the position rounded up. -/
def plainSell (c : LinearPriceCurve) (s A : Nat) : Outcome :=
  (plainPosition c true A).elim .aborted (plainSellAt c s A)

/-- An offer of `s` against balances `x` (of the token offered) and `y`. -/
def plainTrade (c : LinearPriceCurve) (s x y : Nat) : TradeDirection → Outcome
  | .AtoB => plainBuy c s x y
  | .BtoA => plainSell c s y

end Spec
end Verif
