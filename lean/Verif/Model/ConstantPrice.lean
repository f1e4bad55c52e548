import Verif.Model.Types
import Verif.Model.SplMath

/-
Model of `curve/constant_price.rs`.  The curve's only parameter is `token_b_price : u64`.
-/

namespace Verif
namespace ConstantPrice

/-- `trading_tokens_to_pool_tokens`, l.23-56. -/
def tradingTokensToPoolTokens (e : SplEnv) (price : UInt64) (source swapA swapB supply : Nat)
    (dir : TradeDirection) (rd : RoundDirection) : Res Nat := do
  let p := price.toNat
  let given ← match dir with
    | .AtoB => .ok source
    | .BtoA => cmul U256 source p
  let tb ← cmul U256 swapB p
  let total ← cadd U256 tb swapA
  match rd with
  | .Floor => do
    let m ← cmul U256 supply given
    let q ← cdiv m total
    asUint U128 q
  | .Ceiling => do
    let m ← cmul U256 supply given
    let q ← Spl.ceilDiv e.ceilZeroHalf U256 m total
    asUint U128 q.1

/-- `swap_without_fees`, l.67-99. -/
def swapWithoutFees (price : UInt64) (source : Nat) (dir : TradeDirection) :
    Res SwapWithoutFeesResult := do
  let p := price.toNat
  let r ← match dir with
    | .BtoA => do
      let d ← cmul U128 source p
      (.ok (source, d) : Res (Nat × Nat))
    | .AtoB => do
      let d ← cdiv source p
      let rem ← crem source p
      if 0 < rem then do
        let s ← csub source rem
        .ok (s, d)
      else .ok (source, d)
  let s ← mapZeroToNone r.1
  let d ← mapZeroToNone r.2
  .ok ⟨s, d⟩

/-- `normalized_value`, l.212-232, as a raw 12-decimal number. -/
def normalizedValue (price : UInt64) (swapA swapB : Nat) : Res Nat := do
  let bv ← cmul U128 swapB price.toNat
  let value ←
    if bv - (U64 - 1) > (U128 - 1) - (U64 - 1) then do
      let x ← cdiv bv 2
      let y ← cdiv swapA 2
      cadd U128 x y
    else do
      let s ← cadd U128 swapA bv
      cdiv s 2
  Spl.new value

/-- `pool_tokens_to_trading_tokens`, l.105-146. -/
def poolTokensToTradingTokens (e : SplEnv) (price : UInt64) (pool supply swapA swapB : Nat)
    (rd : RoundDirection) : Res TradingTokenResult := do
  let p := price.toNat
  let nv ← normalizedValue price swapA swapB
  let total ← Spl.toImprecise nv
  match rd with
  | .Floor => do
    let m ← cmul U128 pool total
    let a ← cdiv m supply
    let b1 ← cdiv m p
    let b ← cdiv b1 supply
    .ok ⟨a, b⟩
  | .Ceiling => do
    let m ← cmul U128 pool total
    let a ← Spl.ceilDiv e.ceilZeroHalf U128 m supply
    let b1 ← Spl.ceilDiv e.ceilZeroHalf U128 m p
    let b ← Spl.ceilDiv e.ceilZeroHalf U128 b1.1 supply
    .ok ⟨a.1, b.1⟩

/-- `deposit_single_token_type`, l.150-167. -/
def depositSingle (e : SplEnv) (price : UInt64) (source swapA swapB supply : Nat)
    (dir : TradeDirection) : Res Nat :=
  tradingTokensToPoolTokens e price source swapA swapB supply dir .Floor

/-- `withdraw_single_token_type_exact_out`, l.169-186. -/
def withdrawSingle (e : SplEnv) (price : UInt64) (source swapA swapB supply : Nat)
    (dir : TradeDirection) : Res Nat :=
  tradingTokensToPoolTokens e price source swapA swapB supply dir .Ceiling

end ConstantPrice
end Verif
