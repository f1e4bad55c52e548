import Verif.Model.Types
import Verif.Model.SplMath

/-
Model of `curve/constant_product.rs` and `curve/offset.rs`.
-/

namespace Verif
namespace ConstantProduct

/-- `swap`, curve/constant_product.rs l.27-46. -/
def swap (e : SplEnv) (source swapSource swapDest : Nat) : Res SwapWithoutFeesResult := do
  let inv ← cmul U128 swapSource swapDest
  let newSource ← cadd U128 swapSource source
  let r ← Spl.ceilDiv e.ceilZeroHalf U128 inv newSource
  let s ← csub r.2 swapSource
  let d0 ← csub swapDest r.1
  let d ← mapZeroToNone d0
  .ok ⟨s, d⟩

/-- `pool_tokens_to_trading_tokens`, curve/constant_product.rs l.53-93.  The unchecked `+= 1`
(l.80, l.86) cannot overflow `u128`: it happens only when the supply is at least two. -/
def poolTokensToTradingTokens (pool supply swapA swapB : Nat) (rd : RoundDirection) :
    Res TradingTokenResult := do
  let ma ← cmul U128 pool swapA
  let a ← cdiv ma supply
  let mb ← cmul U128 pool swapB
  let b ← cdiv mb supply
  match rd with
  | .Floor => .ok ⟨a, b⟩
  | .Ceiling => do
    let ra ← crem ma supply
    let rb ← crem mb supply
    .ok ⟨if 0 < ra ∧ 0 < a then a + 1 else a, if 0 < rb ∧ 0 < b then b + 1 else b⟩

/-- `deposit_single_token_type`, curve/constant_product.rs l.100-124 (called with `Floor`). -/
def depositSingle (e : SplEnv) (source swapA swapB supply : Nat) (dir : TradeDirection)
    (rd : RoundDirection) : Res Nat := do
  let swapSource := match dir with | .AtoB => swapA | .BtoA => swapB
  let ss ← Spl.new swapSource
  let s ← Spl.new source
  let ratio ← Spl.div s ss
  let one ← Spl.new 1
  let base ← Spl.add one ratio
  let rt ← e.sqrt base
  let root ← Spl.sub rt one
  let ps ← Spl.new supply
  let pt ← Spl.mul ps root
  match rd with
  | .Floor => do
    let f ← Spl.floor pt
    Spl.toImprecise f
  | .Ceiling => do
    let f ← Spl.ceiling pt
    Spl.toImprecise f

/-- `withdraw_single_token_type_exact_out`, curve/constant_product.rs l.131-155
(called with `Ceiling`). -/
def withdrawSingle (e : SplEnv) (source swapA swapB supply : Nat) (dir : TradeDirection)
    (rd : RoundDirection) : Res Nat := do
  let swapSource := match dir with | .AtoB => swapA | .BtoA => swapB
  let ss ← Spl.new swapSource
  let s ← Spl.new source
  let ratio ← Spl.div s ss
  let one ← Spl.new 1
  let base ← Spl.sub one ratio
  let rt ← e.sqrt base
  let root ← Spl.sub one rt
  let ps ← Spl.new supply
  let pt ← Spl.mul ps root
  match rd with
  | .Floor => do
    let f ← Spl.floor pt
    Spl.toImprecise f
  | .Ceiling => do
    let f ← Spl.ceiling pt
    Spl.toImprecise f

end ConstantProduct

namespace Offset

/-- `swap_without_fees`, curve/offset.rs l.40-59. -/
def swapWithoutFees (e : SplEnv) (offset : UInt64) (source swapSource swapDest : Nat)
    (dir : TradeDirection) : Res SwapWithoutFeesResult := do
  let ss ← match dir with
    | .AtoB => .ok swapSource
    | .BtoA => cadd U128 swapSource offset.toNat
  let sd ← match dir with
    | .AtoB => cadd U128 swapDest offset.toNat
    | .BtoA => .ok swapDest
  ConstantProduct.swap e source ss sd

/-- `pool_tokens_to_trading_tokens`, curve/offset.rs l.61-77. -/
def poolTokensToTradingTokens (offset : UInt64) (pool supply swapA swapB : Nat)
    (rd : RoundDirection) : Res TradingTokenResult := do
  let sb ← cadd U128 swapB offset.toNat
  ConstantProduct.poolTokensToTradingTokens pool supply swapA sb rd

/-- `deposit_single_token_type`, curve/offset.rs l.81-98. -/
def depositSingle (e : SplEnv) (offset : UInt64) (source swapA swapB supply : Nat)
    (dir : TradeDirection) : Res Nat := do
  let sb ← cadd U128 swapB offset.toNat
  ConstantProduct.depositSingle e source swapA sb supply dir .Floor

/-- `withdraw_single_token_type_exact_out`, curve/offset.rs l.100-117. -/
def withdrawSingle (e : SplEnv) (offset : UInt64) (source swapA swapB supply : Nat)
    (dir : TradeDirection) : Res Nat := do
  let sb ← cadd U128 swapB offset.toNat
  ConstantProduct.withdrawSingle e source swapA sb supply dir .Ceiling

end Offset
end Verif
