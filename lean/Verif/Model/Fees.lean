import Verif.Model.Types

/-
Model of `curve/fees.rs`.
-/

namespace Verif

/-- `Fees`, curve/fees.rs l.13-42. -/
structure Fees where
  trade_fee_numerator : UInt64
  trade_fee_denominator : UInt64
  owner_trade_fee_numerator : UInt64
  owner_trade_fee_denominator : UInt64
  owner_withdraw_fee_numerator : UInt64
  owner_withdraw_fee_denominator : UInt64
  host_fee_numerator : UInt64
  host_fee_denominator : UInt64
  deriving Repr, DecidableEq, Inhabited

/-- `calculate_fee`, curve/fees.rs l.45-62. -/
def calculateFee (amount num den : Nat) : Res Nat :=
  if num = 0 ∨ amount = 0 then .ok 0
  else do
    let p ← cmul U128 amount num
    let fee ← cdiv p den
    if fee = 0 then .ok 1 else .ok fee

/-- `validate_fraction`, curve/fees.rs l.64-72. -/
def validateFraction (num den : UInt64) : Except SwapError Unit :=
  if den = 0 ∧ num = 0 then .ok ()
  else if num ≥ den then .error .InvalidFee
  else .ok ()

namespace Fees

/-- `owner_withdraw_fee`, l.76-82. -/
def ownerWithdrawFee (f : Fees) (x : Nat) : Res Nat :=
  calculateFee x f.owner_withdraw_fee_numerator.toNat f.owner_withdraw_fee_denominator.toNat

/-- `trading_fee`, l.85-91. -/
def tradingFee (f : Fees) (x : Nat) : Res Nat :=
  calculateFee x f.trade_fee_numerator.toNat f.trade_fee_denominator.toNat

/-- `owner_trading_fee`, l.94-100. -/
def ownerTradingFee (f : Fees) (x : Nat) : Res Nat :=
  calculateFee x f.owner_trade_fee_numerator.toNat f.owner_trade_fee_denominator.toNat

/-- `host_fee`, l.104-110. -/
def hostFee (f : Fees) (x : Nat) : Res Nat :=
  calculateFee x f.host_fee_numerator.toNat f.host_fee_denominator.toNat

/-- `validate`, l.113-125. -/
def validate (f : Fees) : Except SwapError Unit := do
  validateFraction f.trade_fee_numerator f.trade_fee_denominator
  validateFraction f.owner_trade_fee_numerator f.owner_trade_fee_denominator
  validateFraction f.owner_withdraw_fee_numerator f.owner_withdraw_fee_denominator
  validateFraction f.host_fee_numerator f.host_fee_denominator

end Fees
end Verif
