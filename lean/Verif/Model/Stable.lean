import Verif.Model.Types
import Verif.Model.SplMath
import Verif.Model.ConstantProduct

/-
Model of `curve/stable.rs`.
-/

namespace Verif
namespace Stable

/-- `checked_u8_power`, l.24-30: `a^b` for `b ≥ 1` by repeated checked multiplication. -/
def u8Power (a : Nat) : Nat → Res Nat
  | 0 => .ok a
  | 1 => .ok a
  | b + 2 => do
    let r ← u8Power a (b + 1)
    cmul U256 r a

/-- `checked_u8_mul`, l.33-39: `a*b` for `b ≥ 1` by repeated checked addition. -/
def u8Mul (a : Nat) : Nat → Res Nat
  | 0 => .ok a
  | 1 => .ok a
  | b + 2 => do
    let r ← u8Mul a (b + 1)
    cadd U256 r a

/-- `calculate_step`, l.49-61. -/
def calculateStep (d leverage sumX dProduct : Nat) : Res Nat := do
  let lm ← cmul U256 leverage sumX
  let dpm ← u8Mul dProduct 2
  let s ← cadd U256 lm dpm
  let lVal ← cmul U256 s d
  let l1 ← csub leverage 1
  let ls ← cmul U256 d l1
  let ns ← u8Mul dProduct 3
  let rVal ← cadd U256 ls ns
  cdiv lVal rVal

/-- Newton loop of `compute_d`, l.81-97: `n` iterations left, stops at a fixed point. -/
def dLoop (leverage sumX a2 b2 : Nat) : Nat → Nat → Res Nat
  | 0, d => .ok d
  | n + 1, d => do
    let p1 ← cmul U256 d d
    let p2 ← cdiv p1 a2
    let p3 ← cmul U256 p2 d
    let p4 ← cdiv p3 b2
    let d' ← calculateStep d leverage sumX p4
    if d' = d then .ok d' else dLoop leverage sumX a2 b2 n d'

/-- `compute_d`, l.66-100; 32 iterations (l.21). -/
def computeD (leverage a b : Nat) : Res Nat := do
  let a1 ← u8Mul a 2
  let a2 ← cadd U256 a1 1
  let b1 ← u8Mul b 2
  let b2 ← cadd U256 b1 1
  let sumX ← cadd U128 a b
  if sumX = 0 then .ok 0
  else do
    let d ← dLoop leverage sumX a2 b2 32 sumX
    tryUint U128 d

/-- Newton loop of `compute_new_destination_amount`, l.125-132. -/
def yLoop (b c dVal : Nat) : Nat → Nat → Res Nat
  | 0, y => .ok y
  | n + 1, y => do
    let y2 ← u8Power y 2
    let num ← cadd U256 y2 c
    let t ← u8Mul y 2
    let t2 ← cadd U256 t b
    let den ← csub t2 dVal
    let y' ← cdiv num den
    if y' = y then .ok y' else yLoop b c dVal n y'

/-- `compute_new_destination_amount`, l.103-134. -/
def computeNewDestination (leverage newSource dVal : Nat) : Res Nat := do
  let d3 ← u8Power dVal 3
  let x4 ← u8Mul newSource 4
  let den ← cmul U256 x4 leverage
  let c ← cdiv d3 den
  let dl ← cdiv dVal leverage
  let b ← cadd U256 newSource dl
  let y ← yLoop b c dVal 32 dVal
  tryUint U128 y

/-- `swap_without_fees`, l.137-160 (no zero check on the result). -/
def swapWithoutFees (amp : UInt64) (source swapSource swapDest : Nat) :
    Res SwapWithoutFeesResult := do
  let leverage ← cmul U64 amp.toNat 2
  let newSource ← cadd U128 swapSource source
  let d ← computeD leverage swapSource swapDest
  let newDest ← computeNewDestination leverage newSource d
  let out ← csub swapDest newDest
  .ok ⟨source, out⟩

/-- `pool_tokens_to_trading_tokens`, l.164-202: textually the same computation as
curve/constant_product.rs l.53-93. -/
def poolTokensToTradingTokens (pool supply swapA swapB : Nat) (rd : RoundDirection) :
    Res TradingTokenResult :=
  ConstantProduct.poolTokensToTradingTokens pool supply swapA swapB rd

/-- `deposit_single_token_type`, l.207-238. -/
def depositSingle (amp : UInt64) (source swapA swapB supply : Nat) (dir : TradeDirection) :
    Res Nat :=
  if source = 0 then .ok 0
  else do
    let leverage ← cmul U64 amp.toNat 2
    let d0' ← computeD leverage swapA swapB
    let d0 ← Spl.new d0'
    let dep := match dir with | .AtoB => swapA | .BtoA => swapB
    let oth := match dir with | .AtoB => swapB | .BtoA => swapA
    let upd ← cadd U128 dep source
    let d1' ← computeD leverage upd oth
    let d1 ← Spl.new d1'
    let diff ← Spl.sub d1 d0
    let ps ← Spl.new supply
    let m ← Spl.mul diff ps
    let fin ← Spl.div m d0
    let f ← Spl.floor fin
    Spl.toImprecise f

/-- `withdraw_single_token_type_exact_out`, l.240-271. -/
def withdrawSingle (amp : UInt64) (source swapA swapB supply : Nat) (dir : TradeDirection) :
    Res Nat :=
  if source = 0 then .ok 0
  else do
    let leverage ← cmul U64 amp.toNat 2
    let d0' ← computeD leverage swapA swapB
    let d0 ← Spl.new d0'
    let wd := match dir with | .AtoB => swapA | .BtoA => swapB
    let oth := match dir with | .AtoB => swapB | .BtoA => swapA
    let upd ← csub wd source
    let d1' ← computeD leverage upd oth
    let d1 ← Spl.new d1'
    let diff ← Spl.sub d0 d1
    let ps ← Spl.new supply
    let m ← Spl.mul diff ps
    let fin ← Spl.div m d0
    let f ← Spl.ceiling fin
    Spl.toImprecise f

end Stable
end Verif
