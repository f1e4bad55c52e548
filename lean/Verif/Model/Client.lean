import Verif.Model.Wire

/-
Model of the TypeScript client, app/src/index.ts, app/src/layout.ts, app/src/util/account.ts.  The
libraries it uses (bn.js, buffer-layout, @solana/web3.js) are not in `/repo`; what is assumed of
them is said at each definition.
-/

namespace Verif
namespace Client

/-- `BN.toArray().reverse()`: the shortest base-256 digits of the magnitude (the sign is dropped),
least significant first; `[0]` for zero. -/
def digits (n : Nat) : List UInt8 :=
  if n < 256 then [UInt8.ofNat n] else UInt8.ofNat (n % 256) :: digits (n / 256)
termination_by n

/-- `Numberu64.toBuffer`, index.ts l.29-40; `none` is the failed assertion. -/
def toBuffer (x : Int) : Option (List UInt8) :=
  let b := digits x.natAbs
  if b.length = 8 then some b
  else if b.length < 8 then some (b ++ List.replicate (8 - b.length) 0)
  else none

/-- `Numberu64.fromBuffer`, index.ts l.45-54: two hexadecimal digits per byte, most significant byte
first. -/
def fromBuffer (b : List UInt8) : Option Nat :=
  if b.length = 8 then some (b.reverse.foldl (fun n x => n * 256 + x.toNat) 0) else none

/-- Fields of `TokenSwap` that `loadTokenSwap` fills from the chain, index.ts l.115-137. -/
structure Pool where
  tokenProgramId : Pubkey
  poolToken : Pubkey
  feeAccount : Pubkey
  authority : Pubkey
  tokenAccountA : Pubkey
  tokenAccountB : Pubkey
  mintA : Pubkey
  mintB : Pubkey
  tradeFeeNumerator : Nat
  tradeFeeDenominator : Nat
  ownerTradeFeeNumerator : Nat
  ownerTradeFeeDenominator : Nat
  ownerWithdrawFeeNumerator : Nat
  ownerWithdrawFeeDenominator : Nat
  hostFeeNumerator : Nat
  hostFeeDenominator : Nat
  curveType : Nat
  deriving DecidableEq

/-- `BufferLayout.blob(n)` at an offset (`Buffer.slice`, shorter at the end of the buffer). -/
def blob (l : List UInt8) (off n : Nat) : List UInt8 := (l.drop off).take n

/-- `TokenSwapLayout.decode` and the rest of `loadTokenSwap`, index.ts l.57-78 and l.251-325, with
`loadAccount`, util/account.ts l.4-19.  The layout's last `u8` is at offset 291, and reading it
throws on shorter data; the curve parameters behind it are not used.  `none` is an exception. -/
def load (env : Env) (w : World) (address : Pubkey) : Option Pool :=
  if (w address).owner ≠ env.programId then none
  else match (w address).data with
    | .raw l =>
      if l.length < 292 then none
      else if State.byteAt l 1 = 0 then none
      else do
        let n1 ← fromBuffer (blob l 227 8)
        let n2 ← fromBuffer (blob l 235 8)
        let n3 ← fromBuffer (blob l 243 8)
        let n4 ← fromBuffer (blob l 251 8)
        let n5 ← fromBuffer (blob l 259 8)
        let n6 ← fromBuffer (blob l 267 8)
        let n7 ← fromBuffer (blob l 275 8)
        let n8 ← fromBuffer (blob l 283 8)
        return ⟨State.keyAt l 3, State.keyAt l 99, State.keyAt l 195, (env.findPda address).1,
          State.keyAt l 35, State.keyAt l 67, State.keyAt l 131, State.keyAt l 163, n1, n2, n3, n4,
          n5, n6, n7, n8, (State.byteAt l 291).toNat⟩
    | _ => none

/-- `TransactionInstruction`: accounts and data. -/
structure Ix where
  keys : List Meta
  data : List UInt8

/-- Accounts shared by several instructions: `{pubkey, isSigner, isWritable}`. -/
def ro (k : Pubkey) : Meta := ⟨k, false, false⟩
def rw (k : Pubkey) : Meta := ⟨k, false, true⟩
def sg (k : Pubkey) : Meta := ⟨k, true, false⟩

/-- `createInitSwapInstruction`, index.ts l.173-248.  `nu64` writes a JavaScript number as eight
little-endian bytes; only numbers it represents exactly (below 2^53) are meant. -/
def initIx (a : Processor.InitAccounts) (f : Fees) (curveType : UInt8) (param : Int) : Option Ix := do
  let p ← toBuffer param
  return ⟨[rw a.swap, ro a.authority, ro a.tokenA, ro a.tokenB, rw a.poolMint, ro a.fee,
      rw a.destination, ro a.tokenProgram],
    0 :: (State.packFees f ++ curveType :: (p ++ List.replicate 24 0))⟩

/-- `swapInstruction`, index.ts l.491-541. -/
def swapIx (a : Processor.SwapAccounts) (host : Option Pubkey) (amountIn minOut : Int) :
    Option Ix := do
  let x ← toBuffer amountIn
  let y ← toBuffer minOut
  return ⟨[ro a.swap, ro a.authority, sg a.userAuthority, rw a.source, rw a.swapSource,
      rw a.swapDestination, rw a.destination, rw a.poolMint, rw a.poolFee, ro a.tokenProgram] ++
      (match host with
       | some h => [rw h]
       | none => []),
    1 :: (x ++ y)⟩

/-- `depositAllTokenTypesInstruction`, index.ts l.590-640. -/
def depositAllIx (a : Processor.DepositAllAccounts) (pool maxA maxB : Int) : Option Ix := do
  let x ← toBuffer pool
  let y ← toBuffer maxA
  let z ← toBuffer maxB
  return ⟨[ro a.swap, ro a.authority, sg a.userAuthority, rw a.sourceA, rw a.sourceB, rw a.tokenA,
      rw a.tokenB, rw a.poolMint, rw a.destination, ro a.tokenProgram], 2 :: (x ++ y ++ z)⟩

/-- `withdrawAllTokenTypesInstruction`, index.ts l.690-742. -/
def withdrawAllIx (a : Processor.WithdrawAllAccounts) (pool minA minB : Int) : Option Ix := do
  let x ← toBuffer pool
  let y ← toBuffer minA
  let z ← toBuffer minB
  return ⟨[ro a.swap, ro a.authority, sg a.userAuthority, rw a.poolMint, rw a.source, rw a.tokenA,
      rw a.tokenB, rw a.destA, rw a.destB, rw a.fee, ro a.tokenProgram], 3 :: (x ++ y ++ z)⟩

/-- `depositSingleTokenTypeExactAmountInInstruction`, index.ts l.784-832. -/
def depositSingleIx (a : Processor.DepositSingleAccounts) (amountIn minPool : Int) : Option Ix := do
  let x ← toBuffer amountIn
  let y ← toBuffer minPool
  return ⟨[ro a.swap, ro a.authority, sg a.userAuthority, rw a.source, rw a.tokenA, rw a.tokenB,
      rw a.poolMint, rw a.destination, ro a.tokenProgram], 4 :: (x ++ y)⟩

/-- `withdrawSingleTokenTypeExactAmountOutInstruction`, index.ts l.875-927. -/
def withdrawSingleIx (a : Processor.WithdrawSingleAccounts) (amountOut maxPool : Int) :
    Option Ix := do
  let x ← toBuffer amountOut
  let y ← toBuffer maxPool
  return ⟨[ro a.swap, ro a.authority, sg a.userAuthority, rw a.poolMint, rw a.source, rw a.tokenA,
      rw a.tokenB, rw a.destination, rw a.fee, ro a.tokenProgram], 5 :: (x ++ y)⟩

end Client
end Verif
