import Verif.Model.Ledger

/-
Model of `processor.rs` l.29-977 and `constraints.rs`.

Every `process_*` function takes the ledger and returns the new ledger or an error; an error
aborts the transaction, so no partial effects are visible.  `AccountInfo`s are addresses looked
up in the ledger.  `signers` are the addresses that signed the transaction.
-/

namespace Verif

/-- `SwapConstraints`, constraints.rs l.22-29.  `ownerKey` is the result of parsing
`owner_key` (processor.rs l.272-275). -/
structure SwapConstraints where
  ownerKey : Option Pubkey
  valid_curve_types : List CurveType
  fees : Fees

namespace SwapConstraints

/-- `validate_curve`, constraints.rs l.33-43. -/
def validateCurve (sc : SwapConstraints) (c : Curve) : Except Err Unit :=
  require (c.curveType ∈ sc.valid_curve_types) (.swap .UnsupportedCurveType)

/-- `validate_fees`, constraints.rs l.46-60. -/
def validateFees (sc : SwapConstraints) (f : Fees) : Except Err Unit :=
  require
    (f.trade_fee_numerator ≥ sc.fees.trade_fee_numerator ∧
     f.trade_fee_denominator = sc.fees.trade_fee_denominator ∧
     f.owner_trade_fee_numerator ≥ sc.fees.owner_trade_fee_numerator ∧
     f.owner_trade_fee_denominator = sc.fees.owner_trade_fee_denominator ∧
     f.owner_withdraw_fee_numerator ≥ sc.fees.owner_withdraw_fee_numerator ∧
     f.owner_withdraw_fee_denominator = sc.fees.owner_withdraw_fee_denominator ∧
     f.host_fee_numerator = sc.fees.host_fee_numerator ∧
     f.host_fee_denominator = sc.fees.host_fee_denominator)
    (.swap .InvalidFee)

/-- The constraints of a `production` build, constraints.rs l.63-93, with the compile-time owner
address as a parameter. -/
def production (owner : Option Pubkey) : SwapConstraints where
  ownerKey := owner
  valid_curve_types := [.ConstantPrice, .ConstantProduct]
  fees :=
    { trade_fee_numerator := 0, trade_fee_denominator := 10000
      owner_trade_fee_numerator := 5, owner_trade_fee_denominator := 10000
      owner_withdraw_fee_numerator := 0, owner_withdraw_fee_denominator := 0
      host_fee_numerator := 20, host_fee_denominator := 100 }

end SwapConstraints

/-- Everything outside the program: its own address, the token program's address,
program-address derivation, the open parts of `spl-math`, and the compile-time constraints
(constraints.rs l.85-98). -/
structure Env where
  programId : Pubkey
  tokenProgramId : Pubkey
  /-- `Pubkey::create_program_address(&[swap, &[bump]], program_id)`, processor.rs l.56-63. -/
  createPda : Pubkey → UInt8 → Option Pubkey
  /-- `Pubkey::find_program_address(&[swap], program_id)`, processor.rs l.225-226. -/
  findPda : Pubkey → Pubkey × UInt8
  spl : SplEnv
  constraints : Option SwapConstraints

namespace Processor

variable (env : Env) (signers : List Pubkey)

/-- `SwapError` to instruction error. -/
def liftSwap {α : Type} : Except SwapError α → Except Err α
  | .ok a => .ok a
  | .error e => .error (.swap e)

/-- `.ok_or(SwapError::…)?` on an `Option`-returning calculation; a panic aborts. -/
def okOr {α : Type} (r : Res α) (e : SwapError) : Except Err α :=
  match r with
  | .ok a => .ok a
  | .none => .error (.swap e)
  | .panic => .error .Panic

/-- `to_u64`, processor.rs l.1052-1054. -/
def toU64 (v : Nat) : Except Err UInt64 :=
  if v < U64 then .ok (UInt64.ofNat v) else .error (.swap .ConversionFailure)

/-- `unpack_token_account`, l.31-41. -/
def unpackTokenAccount (w : World) (k tp : Pubkey) : Except Err TokenAccount :=
  if (w k).owner ≠ tp then .error (.swap .IncorrectTokenProgramId)
  else match (w k).data with
    | .token t => .ok t
    | _ => .error (.swap .ExpectedAccount)

/-- `unpack_mint`, l.44-54. -/
def unpackMint (w : World) (k tp : Pubkey) : Except Err Mint :=
  if (w k).owner ≠ tp then .error (.swap .IncorrectTokenProgramId)
  else match (w k).data with
    | .mint m => .ok m
    | _ => .error (.swap .ExpectedMint)

/-- `SwapVersion::unpack(&swap_info.data.borrow())`.  The encodings of token accounts (165
bytes) and mints (82 bytes) fail the length check of `SwapV1::unpack`. -/
def unpackSwap (w : World) (k : Pubkey) : Except Err SwapV1 :=
  match (w k).data with
  | .raw l => SwapVersion.unpack l
  | _ => .error .InvalidAccountData

/-- `authority_id`, l.57-64. -/
def authorityId (k : Pubkey) (bump : UInt8) : Except Err Pubkey :=
  optErr (env.createPda k bump) (.swap .InvalidProgramAddress)

/-- Signatures visible to a token-program call made with `invoke_signed` and the seeds
`[swap, bump]`: the transaction's signers and the derived address. -/
def cpiSigned (swap : Pubkey) (bump : UInt8) : Except Err (Pubkey → Bool) :=
  match env.createPda swap bump with
  | some pda => .ok fun k => decide (k ∈ signers ∨ k = pda)
  | none => .error .InvalidSeeds

/-- `token_transfer`, l.121-147.  The spl-token instruction builder rejects other program ids. -/
def tokenTransfer (swap tokenProgram src dst authority : Pubkey) (bump : UInt8)
    (amount : UInt64) (w : World) : Except Err World := do
  require (tokenProgram = env.tokenProgramId) .IncorrectProgramId
  let signed ← cpiSigned env signers swap bump
  Token.transfer env.tokenProgramId signed src dst authority amount w

/-- `token_mint_to`, l.97-118. -/
def tokenMintTo (swap tokenProgram mint dst authority : Pubkey) (bump : UInt8)
    (amount : UInt64) (w : World) : Except Err World := do
  require (tokenProgram = env.tokenProgramId) .IncorrectProgramId
  let signed ← cpiSigned env signers swap bump
  Token.mintTo env.tokenProgramId signed mint dst authority amount w

/-- `token_burn`, l.67-94. -/
def tokenBurn (swap tokenProgram src mint authority : Pubkey) (bump : UInt8)
    (amount : UInt64) (w : World) : Except Err World := do
  require (tokenProgram = env.tokenProgramId) .IncorrectProgramId
  let signed ← cpiSigned env signers swap bump
  Token.burn env.tokenProgramId signed src mint authority amount w

/-- `token_transfer` guarded by `if amount > 0` (l.682-692, l.703-724). -/
def tokenTransferIfPos (swap tokenProgram src dst authority : Pubkey) (bump : UInt8)
    (amount : UInt64) (w : World) : Except Err World :=
  if amount > 0 then tokenTransfer env signers swap tokenProgram src dst authority bump amount w
  else .ok w

/-- `check_accounts`, l.150-199. -/
def checkAccounts (w : World) (ts : SwapV1) (swap authority tokenA tokenB poolMint
    tokenProgram : Pubkey) (userA userB fee : Option Pubkey) : Except Err Unit := do
  require ((w swap).owner = env.programId) .IncorrectProgramId
  let aid ← authorityId env swap ts.bump_seed
  require (authority = aid) (.swap .InvalidProgramAddress)
  require (tokenA = ts.token_a) (.swap .IncorrectSwapAccount)
  require (tokenB = ts.token_b) (.swap .IncorrectSwapAccount)
  require (poolMint = ts.pool_mint) (.swap .IncorrectPoolMint)
  require (tokenProgram = ts.token_program_id) (.swap .IncorrectTokenProgramId)
  require (userA ≠ some tokenA) (.swap .InvalidInput)
  require (userB ≠ some tokenB) (.swap .InvalidInput)
  require (fee = none ∨ fee = some ts.pool_fee_account) (.swap .IncorrectFeeAccount)

/-- Accounts of `Initialize`, instructions/initialize.rs l.12-37. -/
structure InitAccounts where
  swap : Pubkey
  authority : Pubkey
  tokenA : Pubkey
  tokenB : Pubkey
  poolMint : Pubkey
  fee : Pubkey
  destination : Pubkey
  tokenProgram : Pubkey
  deriving DecidableEq

/-- The constraints block of `process_initialize`, l.270-281. -/
def checkConstraints (fees : Fees) (curve : Curve) (feeOwner : Pubkey) :
    Option SwapConstraints → Except Err Unit
  | none => .ok ()
  | some sc => do
    let owner ← optErr sc.ownerKey (.swap .InvalidOwner)
    require (feeOwner = owner) (.swap .InvalidOwner)
    sc.validateCurve curve
    sc.validateFees fees

/-- `SwapVersion::is_initialized(&swap_info.data.borrow())`, l.219. -/
def isInitialized (w : World) (k : Pubkey) : Bool :=
  match (w k).data with
  | .raw l => SwapVersion.isInitialized l
  | _ => false

/-- Final write of `process_initialize`, l.305-318.  The runtime rejects the transaction if the
account does not belong to the program. -/
def writeState (w : World) (k : Pubkey) (s : SwapV1) : Except Err World :=
  match (w k).data with
  | .raw l => do
    let bytes ← SwapVersion.pack s l
    require ((w k).owner = env.programId) .ExternalAccountDataModified
    .ok (w.setData k (.raw bytes))
  | _ => .error .InvalidAccountData

/-- `process_initialize`, l.202-320. -/
def processInitialize (fees : Fees) (curve : Curve) (a : InitAccounts) (w : World) :
    Except Err World := do
  require (isInitialized w a.swap = false) (.swap .AlreadyInUse)
  let bump := (env.findPda a.swap).2
  require (a.authority = (env.findPda a.swap).1) (.swap .InvalidProgramAddress)
  let tokenA ← unpackTokenAccount w a.tokenA a.tokenProgram
  let tokenB ← unpackTokenAccount w a.tokenB a.tokenProgram
  let feeAcc ← unpackTokenAccount w a.fee a.tokenProgram
  let destination ← unpackTokenAccount w a.destination a.tokenProgram
  let poolMint ← unpackMint w a.poolMint a.tokenProgram
  require (a.authority = tokenA.owner) (.swap .InvalidOwner)
  require (a.authority = tokenB.owner) (.swap .InvalidOwner)
  require (a.authority ≠ destination.owner) (.swap .InvalidOutputOwner)
  require (a.authority ≠ feeAcc.owner) (.swap .InvalidOutputOwner)
  require (some a.authority = poolMint.mint_authority) (.swap .InvalidOwner)
  require (tokenA.mint ≠ tokenB.mint) (.swap .RepeatedMint)
  liftSwap (curve.validateSupply tokenA.amount tokenB.amount)
  require (tokenA.delegate = none) (.swap .InvalidDelegate)
  require (tokenB.delegate = none) (.swap .InvalidDelegate)
  require (tokenA.close_authority = none) (.swap .InvalidCloseAuthority)
  require (tokenB.close_authority = none) (.swap .InvalidCloseAuthority)
  require (poolMint.supply = 0) (.swap .InvalidSupply)
  require (poolMint.freeze_authority = none) (.swap .InvalidFreezeAuthority)
  require (a.poolMint = feeAcc.mint) (.swap .IncorrectPoolMint)
  checkConstraints fees curve feeAcc.owner env.constraints
  liftSwap fees.validate
  liftSwap curve.validate
  let initial ← toU64 curve.newPoolSupply
  let w1 ← tokenMintTo env signers a.swap a.tokenProgram a.poolMint a.destination a.authority
    bump initial w
  writeState env w1 a.swap
    { is_initialized := true
      bump_seed := bump
      token_program_id := a.tokenProgram
      token_a := a.tokenA
      token_b := a.tokenB
      pool_mint := a.poolMint
      token_a_mint := tokenA.mint
      token_b_mint := tokenB.mint
      pool_fee_account := a.fee
      fees := fees
      swap_curve := curve }

/-- Accounts of `Swap`, instructions/swap.rs l.6-38. -/
structure SwapAccounts where
  swap : Pubkey
  authority : Pubkey
  userAuthority : Pubkey
  source : Pubkey
  swapSource : Pubkey
  swapDestination : Pubkey
  destination : Pubkey
  poolMint : Pubkey
  poolFee : Pubkey
  tokenProgram : Pubkey
  deriving DecidableEq

/-- Host-fee part of `process_swap`, l.428-457: returns what is left for the pool's fee account
and the ledger after minting the host's share. -/
def hostFeeStep (ts : SwapV1) (a : SwapAccounts) (host : Option Pubkey) (poolTokens : Nat)
    (w : World) : Except Err (Nat × World) :=
  match host with
  | none => .ok (poolTokens, w)
  | some h => do
    let hostAcc ← unpackTokenAccount w h ts.token_program_id
    require (a.poolMint = hostAcc.mint) (.swap .IncorrectPoolMint)
    let hostFee ← okOr (ts.fees.hostFee poolTokens) .FeeCalculationFailure
    if hostFee > 0 then do
      let rest ← okOr (csub poolTokens hostFee) .FeeCalculationFailure
      let amt ← toU64 hostFee
      let w' ← tokenMintTo env signers a.swap a.tokenProgram a.poolMint h a.authority
        ts.bump_seed amt w
      .ok (rest, w')
    else .ok (poolTokens, w)

/-- Owner-fee part of `process_swap`, l.426-469. -/
def ownerFeeStep (ts : SwapV1) (a : SwapAccounts) (host : Option Pubkey) (poolTokens : Nat)
    (w : World) : Except Err World :=
  if poolTokens > 0 then do
    let r ← hostFeeStep env signers ts a host poolTokens w
    let amt ← toU64 r.1
    tokenMintTo env signers a.swap a.tokenProgram a.poolMint a.poolFee a.authority
      ts.bump_seed amt r.2
  else .ok w

/-- Direction of a swap, l.374-378. -/
def swapDirection (ts : SwapV1) (a : SwapAccounts) : TradeDirection :=
  if a.swapSource = ts.token_a then .AtoB else .BtoA

/-- `process_swap`, l.323-489.  `host` is the optional eleventh account. -/
def processSwap (amountIn minOut : UInt64) (a : SwapAccounts) (host : Option Pubkey)
    (w : World) : Except Err World := do
  require ((w a.swap).owner = env.programId) .IncorrectProgramId
  let ts ← unpackSwap w a.swap
  let aid ← authorityId env a.swap ts.bump_seed
  require (a.authority = aid) (.swap .InvalidProgramAddress)
  require (a.swapSource = ts.token_a ∨ a.swapSource = ts.token_b) (.swap .IncorrectSwapAccount)
  require (a.swapDestination = ts.token_a ∨ a.swapDestination = ts.token_b)
    (.swap .IncorrectSwapAccount)
  require (a.swapSource ≠ a.swapDestination) (.swap .InvalidInput)
  require (a.swapSource ≠ a.source) (.swap .InvalidInput)
  require (a.swapDestination ≠ a.destination) (.swap .InvalidInput)
  require (a.poolMint = ts.pool_mint) (.swap .IncorrectPoolMint)
  require (a.poolFee = ts.pool_fee_account) (.swap .IncorrectFeeAccount)
  require (a.tokenProgram = ts.token_program_id) (.swap .IncorrectTokenProgramId)
  let src ← unpackTokenAccount w a.swapSource ts.token_program_id
  let dst ← unpackTokenAccount w a.swapDestination ts.token_program_id
  let poolMint ← unpackMint w a.poolMint ts.token_program_id
  let dir := swapDirection ts a
  let r ← okOr (ts.swap_curve.swap env.spl amountIn.toNat src.amount.toNat dst.amount.toNat dir
    ts.fees) .ZeroTradingTokens
  require (minOut.toNat ≤ r.destination_amount_swapped) (.swap .ExceededSlippage)
  let newA := match dir with
    | .AtoB => r.new_swap_source_amount
    | .BtoA => r.new_swap_destination_amount
  let newB := match dir with
    | .AtoB => r.new_swap_destination_amount
    | .BtoA => r.new_swap_source_amount
  let amtIn ← toU64 r.source_amount_swapped
  let w1 ← tokenTransfer env signers a.swap a.tokenProgram a.source a.swapSource
    a.userAuthority ts.bump_seed amtIn w
  let poolTokens ← okOr (ts.swap_curve.withdrawSingle env.spl r.owner_fee newA newB
    poolMint.supply.toNat dir ts.fees) .FeeCalculationFailure
  let w2 ← ownerFeeStep env signers ts a host poolTokens w1
  let amtOut ← toU64 r.destination_amount_swapped
  tokenTransfer env signers a.swap a.tokenProgram a.swapDestination a.destination a.authority
    ts.bump_seed amtOut w2

/-- Accounts of `DepositAllTokenTypes`, instructions/deposit_all_token_types.rs l.6-33. -/
structure DepositAllAccounts where
  swap : Pubkey
  authority : Pubkey
  userAuthority : Pubkey
  sourceA : Pubkey
  sourceB : Pubkey
  tokenA : Pubkey
  tokenB : Pubkey
  poolMint : Pubkey
  destination : Pubkey
  tokenProgram : Pubkey
  deriving DecidableEq

/-- `process_deposit_all_token_types`, l.492-595. -/
def processDepositAll (poolTokenAmount maxA maxB : UInt64) (a : DepositAllAccounts) (w : World) :
    Except Err World := do
  let ts ← unpackSwap w a.swap
  require (ts.swap_curve.allowsDeposits = true) (.swap .UnsupportedCurveOperation)
  checkAccounts env w ts a.swap a.authority a.tokenA a.tokenB a.poolMint a.tokenProgram
    (some a.sourceA) (some a.sourceB) none
  let tokenA ← unpackTokenAccount w a.tokenA ts.token_program_id
  let tokenB ← unpackTokenAccount w a.tokenB ts.token_program_id
  let poolMint ← unpackMint w a.poolMint ts.token_program_id
  let poolTokens :=
    if poolMint.supply > 0 then poolTokenAmount.toNat else ts.swap_curve.newPoolSupply
  let supply :=
    if poolMint.supply > 0 then poolMint.supply.toNat else ts.swap_curve.newPoolSupply
  let r ← okOr (ts.swap_curve.poolTokensToTradingTokens env.spl poolTokens supply
    tokenA.amount.toNat tokenB.amount.toNat .Ceiling) .ZeroTradingTokens
  let amtA ← toU64 r.token_a_amount
  require (amtA ≤ maxA) (.swap .ExceededSlippage)
  require (amtA ≠ 0) (.swap .ZeroTradingTokens)
  let amtB ← toU64 r.token_b_amount
  require (amtB ≤ maxB) (.swap .ExceededSlippage)
  require (amtB ≠ 0) (.swap .ZeroTradingTokens)
  let amtP ← toU64 poolTokens
  let w1 ← tokenTransfer env signers a.swap a.tokenProgram a.sourceA a.tokenA a.userAuthority
    ts.bump_seed amtA w
  let w2 ← tokenTransfer env signers a.swap a.tokenProgram a.sourceB a.tokenB a.userAuthority
    ts.bump_seed amtB w1
  tokenMintTo env signers a.swap a.tokenProgram a.poolMint a.destination a.authority
    ts.bump_seed amtP w2

/-- Accounts of `WithdrawAllTokenTypes`, instructions/withdraw_all_token_types.rs l.6-40. -/
structure WithdrawAllAccounts where
  swap : Pubkey
  authority : Pubkey
  userAuthority : Pubkey
  poolMint : Pubkey
  source : Pubkey
  tokenA : Pubkey
  tokenB : Pubkey
  destA : Pubkey
  destB : Pubkey
  fee : Pubkey
  tokenProgram : Pubkey
  deriving DecidableEq

/-- `process_withdraw_all_token_types`, l.598-722. -/
def processWithdrawAll (poolTokenAmount minA minB : UInt64) (a : WithdrawAllAccounts)
    (w : World) : Except Err World := do
  let ts ← unpackSwap w a.swap
  checkAccounts env w ts a.swap a.authority a.tokenA a.tokenB a.poolMint a.tokenProgram
    (some a.destA) (some a.destB) (some a.fee)
  let tokenA ← unpackTokenAccount w a.tokenA ts.token_program_id
  let tokenB ← unpackTokenAccount w a.tokenB ts.token_program_id
  let poolMint ← unpackMint w a.poolMint ts.token_program_id
  let withdrawFee ←
    if a.fee = a.source then .ok 0
    else okOr (ts.fees.ownerWithdrawFee poolTokenAmount.toNat) .FeeCalculationFailure
  let poolTokens ← okOr (csub poolTokenAmount.toNat withdrawFee) .CalculationFailure
  let r ← okOr (ts.swap_curve.poolTokensToTradingTokens env.spl poolTokens
    poolMint.supply.toNat tokenA.amount.toNat tokenB.amount.toNat .Floor) .ZeroTradingTokens
  let amtA0 ← toU64 r.token_a_amount
  let amtA := min tokenA.amount amtA0
  require (minA ≤ amtA) (.swap .ExceededSlippage)
  require (¬(amtA = 0 ∧ tokenA.amount ≠ 0)) (.swap .ZeroTradingTokens)
  let amtB0 ← toU64 r.token_b_amount
  let amtB := min tokenB.amount amtB0
  require (minB ≤ amtB) (.swap .ExceededSlippage)
  require (¬(amtB = 0 ∧ tokenB.amount ≠ 0)) (.swap .ZeroTradingTokens)
  let feeAmt ← toU64 withdrawFee
  let w1 ← tokenTransferIfPos env signers a.swap a.tokenProgram a.source a.fee a.userAuthority
    ts.bump_seed feeAmt w
  let burnAmt ← toU64 poolTokens
  let w2 ← tokenBurn env signers a.swap a.tokenProgram a.source a.poolMint a.userAuthority
    ts.bump_seed burnAmt w1
  let w3 ← tokenTransferIfPos env signers a.swap a.tokenProgram a.tokenA a.destA a.authority
    ts.bump_seed amtA w2
  tokenTransferIfPos env signers a.swap a.tokenProgram a.tokenB a.destB a.authority
    ts.bump_seed amtB w3

/-- Accounts of `DepositSingleTokenTypeExactAmountIn`,
instructions/deposit_single_token_type_exact_amount_in.rs l.6-32. -/
structure DepositSingleAccounts where
  swap : Pubkey
  authority : Pubkey
  userAuthority : Pubkey
  source : Pubkey
  tokenA : Pubkey
  tokenB : Pubkey
  poolMint : Pubkey
  destination : Pubkey
  tokenProgram : Pubkey
  deriving DecidableEq

/-- Direction of a single-sided operation from the user's account mint, l.753-759, l.870-876. -/
def singleDirection (userMint mintA mintB : Pubkey) : Except Err TradeDirection :=
  if userMint = mintA then .ok .AtoB
  else if userMint = mintB then .ok .BtoA
  else .error (.swap .IncorrectSwapAccount)

/-- `process_deposit_single_token_type_exact_amount_in`, l.725-838. -/
def processDepositSingle (amountIn minPool : UInt64) (a : DepositSingleAccounts) (w : World) :
    Except Err World := do
  let ts ← unpackSwap w a.swap
  let srcAcc ← unpackTokenAccount w a.source ts.token_program_id
  let tokenA ← unpackTokenAccount w a.tokenA ts.token_program_id
  let tokenB ← unpackTokenAccount w a.tokenB ts.token_program_id
  let dir ← singleDirection srcAcc.mint tokenA.mint tokenB.mint
  checkAccounts env w ts a.swap a.authority a.tokenA a.tokenB a.poolMint a.tokenProgram
    (if dir = .AtoB then some a.source else none) (if dir = .BtoA then some a.source else none)
    none
  let poolMint ← unpackMint w a.poolMint ts.token_program_id
  let poolTokens ←
    if poolMint.supply > 0 then
      okOr (ts.swap_curve.depositSingle env.spl amountIn.toNat tokenA.amount.toNat
        tokenB.amount.toNat poolMint.supply.toNat dir ts.fees) .ZeroTradingTokens
    else .ok ts.swap_curve.newPoolSupply
  let amtP ← toU64 poolTokens
  require (minPool ≤ amtP) (.swap .ExceededSlippage)
  require (amtP ≠ 0) (.swap .ZeroTradingTokens)
  let w1 ← tokenTransfer env signers a.swap a.tokenProgram a.source
    (match dir with | .AtoB => a.tokenA | .BtoA => a.tokenB) a.userAuthority
    ts.bump_seed amountIn w
  tokenMintTo env signers a.swap a.tokenProgram a.poolMint a.destination a.authority
    ts.bump_seed amtP w1

/-- Accounts of `WithdrawSingleTokenTypeExactAmountOut`,
instructions/withdraw_single_token_type_exact_amount_out.rs l.6-36. -/
structure WithdrawSingleAccounts where
  swap : Pubkey
  authority : Pubkey
  userAuthority : Pubkey
  poolMint : Pubkey
  source : Pubkey
  tokenA : Pubkey
  tokenB : Pubkey
  destination : Pubkey
  fee : Pubkey
  tokenProgram : Pubkey
  deriving DecidableEq

/-- `process_withdraw_single_token_type_exact_amount_out`, l.841-977. -/
def processWithdrawSingle (amountOut maxPool : UInt64) (a : WithdrawSingleAccounts)
    (w : World) : Except Err World := do
  let ts ← unpackSwap w a.swap
  let dstAcc ← unpackTokenAccount w a.destination ts.token_program_id
  let tokenA ← unpackTokenAccount w a.tokenA ts.token_program_id
  let tokenB ← unpackTokenAccount w a.tokenB ts.token_program_id
  let dir ← singleDirection dstAcc.mint tokenA.mint tokenB.mint
  checkAccounts env w ts a.swap a.authority a.tokenA a.tokenB a.poolMint a.tokenProgram
    (if dir = .AtoB then some a.destination else none)
    (if dir = .BtoA then some a.destination else none) (some a.fee)
  let poolMint ← unpackMint w a.poolMint ts.token_program_id
  let burnTokens ← okOr (ts.swap_curve.withdrawSingle env.spl amountOut.toNat
    tokenA.amount.toNat tokenB.amount.toNat poolMint.supply.toNat dir ts.fees)
    .ZeroTradingTokens
  let withdrawFee ←
    if a.fee = a.source then .ok 0
    else okOr (ts.fees.ownerWithdrawFee burnTokens) .FeeCalculationFailure
  let poolTokens ← okOr (cadd U128 burnTokens withdrawFee) .CalculationFailure
  let poolTokens64 ← toU64 poolTokens
  require (poolTokens64 ≤ maxPool) (.swap .ExceededSlippage)
  require (poolTokens ≠ 0) (.swap .ZeroTradingTokens)
  let feeAmt ← toU64 withdrawFee
  let w1 ← tokenTransferIfPos env signers a.swap a.tokenProgram a.source a.fee a.userAuthority
    ts.bump_seed feeAmt w
  let burnAmt ← toU64 burnTokens
  let w2 ← tokenBurn env signers a.swap a.tokenProgram a.source a.poolMint a.userAuthority
    ts.bump_seed burnAmt w1
  tokenTransfer env signers a.swap a.tokenProgram
    (match dir with | .AtoB => a.tokenA | .BtoA => a.tokenB) a.destination a.authority
    ts.bump_seed amountOut w2

end Processor
end Verif
