import Verif.Model.Fees
import Verif.Model.Linear
import Verif.Model.ConstantPrice
import Verif.Model.ConstantProduct
import Verif.Model.Stable

/-
Model of `curve/base.rs` and of the trait dispatch in `curve/calculator.rs`.
-/

namespace Verif

/-- `CurveType`, curve/base.rs l.27-41. -/
inductive CurveType where
  | ConstantProduct | ConstantPrice | Stable | Offset | LinearPrice
  deriving Repr, DecidableEq, Inhabited

/-- `SwapCurve`, curve/base.rs l.61-70.  The Rust struct has a type tag and a boxed calculator;
they are always created together (lib.rs l.63-66, l.94-102, base.rs l.219-235), so one
inductive type represents both. -/
inductive Curve where
  | constantProduct
  | constantPrice (token_b_price : UInt64)
  | stable (amp : UInt64)
  | offset (token_b_offset : UInt64)
  | linear (c : LinearPriceCurve)
  deriving Repr, DecidableEq, Inhabited

/-- `SwapResult`, curve/base.rs l.44-59. -/
structure SwapResult where
  new_swap_source_amount : Nat
  new_swap_destination_amount : Nat
  source_amount_swapped : Nat
  destination_amount_swapped : Nat
  trade_fee : Nat
  owner_fee : Nat
  deriving Repr, DecidableEq, Inhabited

namespace Curve

/-- Field `curve_type`. -/
def curveType : Curve → CurveType
  | constantProduct => .ConstantProduct
  | constantPrice _ => .ConstantPrice
  | stable _ => .Stable
  | offset _ => .Offset
  | linear _ => .LinearPrice

/-- `CurveCalculator::swap_without_fees` dispatch, curve/calculator.rs l.88-94. -/
def swapWithoutFees (e : SplEnv) (c : Curve) (source swapSource swapDest : Nat)
    (dir : TradeDirection) : Res SwapWithoutFeesResult :=
  match c with
  | constantProduct => ConstantProduct.swap e source swapSource swapDest
  | constantPrice p => ConstantPrice.swapWithoutFees p source dir
  | stable amp => Stable.swapWithoutFees amp source swapSource swapDest
  | offset o => Offset.swapWithoutFees e o source swapSource swapDest dir
  | linear l => Linear.swapWithoutFees l source swapSource swapDest dir

/-- `CurveCalculator::pool_tokens_to_trading_tokens` dispatch, curve/calculator.rs l.104-111.
The linear curve returns `None` (curve/linear_price.rs l.336-355). -/
def poolTokensToTradingTokens (e : SplEnv) (c : Curve) (pool supply swapA swapB : Nat)
    (rd : RoundDirection) : Res TradingTokenResult :=
  match c with
  | constantProduct => ConstantProduct.poolTokensToTradingTokens pool supply swapA swapB rd
  | constantPrice p => ConstantPrice.poolTokensToTradingTokens e p pool supply swapA swapB rd
  | stable _ => Stable.poolTokensToTradingTokens pool supply swapA swapB rd
  | offset o => Offset.poolTokensToTradingTokens o pool supply swapA swapB rd
  | linear _ => .none

/-- `CurveCalculator::deposit_single_token_type` dispatch, curve/calculator.rs l.122-129.
The linear curve returns `None` (curve/linear_price.rs l.360-371). -/
def calcDepositSingle (e : SplEnv) (c : Curve) (source swapA swapB supply : Nat)
    (dir : TradeDirection) : Res Nat :=
  match c with
  | constantProduct => ConstantProduct.depositSingle e source swapA swapB supply dir .Floor
  | constantPrice p => ConstantPrice.depositSingle e p source swapA swapB supply dir
  | stable amp => Stable.depositSingle amp source swapA swapB supply dir
  | offset o => Offset.depositSingle e o source swapA swapB supply dir
  | linear _ => .none

/-- `CurveCalculator::withdraw_single_token_type_exact_out` dispatch, curve/calculator.rs
l.141-148.  The linear curve returns `None` (curve/linear_price.rs l.376-389). -/
def calcWithdrawSingle (e : SplEnv) (c : Curve) (source swapA swapB supply : Nat)
    (dir : TradeDirection) : Res Nat :=
  match c with
  | constantProduct => ConstantProduct.withdrawSingle e source swapA swapB supply dir .Ceiling
  | constantPrice p => ConstantPrice.withdrawSingle e p source swapA swapB supply dir
  | stable amp => Stable.withdrawSingle amp source swapA swapB supply dir
  | offset o => Offset.withdrawSingle e o source swapA swapB supply dir
  | linear _ => .none

/-- `CurveCalculator::new_pool_supply`, curve/calculator.rs l.98-100 (no curve overrides it). -/
def newPoolSupply (_ : Curve) : Nat := INITIAL_SWAP_POOL_AMOUNT

/-- `CurveCalculator::validate`: constant_product.rs l.249-251, constant_price.rs l.188-194,
stable.rs l.312-315, offset.rs l.119-125, linear_price.rs l.393-398. -/
def validate : Curve → Except SwapError Unit
  | constantProduct => .ok ()
  | constantPrice p => if p = 0 then .error .InvalidCurve else .ok ()
  | stable _ => .ok ()
  | offset o => if o = 0 then .error .InvalidCurve else .ok ()
  | linear l => match Linear.isCurveParamValid l with
    | .ok _ => .ok ()
    | _ => .error .InvalidCurve

/-- `CurveCalculator::validate_supply`: default calculator.rs l.156-164, constant_price.rs
l.196-201, offset.rs l.127-132, linear_price.rs l.402-411. -/
def validateSupply (c : Curve) (a b : UInt64) : Except SwapError Unit :=
  match c with
  | constantPrice _ | offset _ => if a = 0 then .error .EmptySupply else .ok ()
  | linear _ =>
    if b = 0 then .error .EmptySupply
    else if a ≠ 0 then .error .InvalidSupply
    else .ok ()
  | constantProduct | stable _ =>
    if a = 0 then .error .EmptySupply
    else if b = 0 then .error .EmptySupply
    else .ok ()

/-- `CurveCalculator::allows_deposits`: default `true` (calculator.rs l.170-172), `false` for
offset.rs l.139-141 and linear_price.rs l.414-416. -/
def allowsDeposits : Curve → Bool
  | offset _ | linear _ => false
  | _ => true

/-- `SwapCurve::swap`, curve/base.rs l.75-110. -/
def swap (e : SplEnv) (c : Curve) (source swapSource swapDest : Nat) (dir : TradeDirection)
    (fees : Fees) : Res SwapResult := do
  let tradeFee ← fees.tradingFee source
  let ownerFee ← fees.ownerTradingFee source
  let totalFees ← cadd U128 tradeFee ownerFee
  let lessFees ← csub source totalFees
  let r ← c.swapWithoutFees e lessFees swapSource swapDest dir
  let swapped ← cadd U128 r.source_amount_swapped totalFees
  let newSource ← cadd U128 swapSource swapped
  let newDest ← csub swapDest r.destination_amount_swapped
  .ok ⟨newSource, newDest, swapped, r.destination_amount_swapped, tradeFee, ownerFee⟩

/-- `SwapCurve::deposit_single_token_type`, curve/base.rs l.113-138. -/
def depositSingle (e : SplEnv) (c : Curve) (source swapA swapB supply : Nat)
    (dir : TradeDirection) (fees : Fees) : Res Nat :=
  if source = 0 then .ok 0
  else do
    let half ← cdiv source 2
    let tradeFee ← fees.tradingFee (max 1 half)
    let less ← csub source tradeFee
    c.calcDepositSingle e less swapA swapB supply dir

/-- `SwapCurve::withdraw_single_token_type_exact_out`, curve/base.rs l.141-167. -/
def withdrawSingle (e : SplEnv) (c : Curve) (source swapA swapB supply : Nat)
    (dir : TradeDirection) (fees : Fees) : Res Nat :=
  if source = 0 then .ok 0
  else do
    let half ← cdiv source 2
    let tradeFee ← fees.tradingFee (max 1 half)
    let less ← csub source tradeFee
    c.calcWithdrawSingle e less swapA swapB supply dir

end Curve
end Verif
