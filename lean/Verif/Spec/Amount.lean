import Verif.Spec.Serve
import Verif.Spec.Exec

/-
Instructions that name the right accounts, and what can still be wrong with them.
-/

namespace Verif
namespace Spec

/-- The token account at `k` takes tokens of `mint`: it is of that mint and not frozen. -/
def Takes (env : Env) (w : World) (k mint : Pubkey) : Prop :=
  (w k).owner = env.tokenProgramId ∧ ∃ t, tokenAt w k = some t ∧ t.mint = mint ∧ t.frozen = false

/-- It is also owned by `u`. -/
def Owns (env : Env) (w : World) (k mint u : Pubkey) : Prop :=
  (w k).owner = env.tokenProgramId ∧ ∃ t, tokenAt w k = some t ∧ t.mint = mint ∧ t.frozen = false ∧
    t.owner = u

/-- The accounts of an instruction are what they should be: the pool's own, token accounts of the right
mints, none frozen, those to be charged owned by the signer.  Nothing is said about amounts, balances and
supplies. -/
def InOrder (env : Env) (w : World) (signers : List Pubkey) : Instr → Prop
  | .swap a _ _ => ∃ (s : SwapV1) (dir : TradeDirection),
      PoolAt env w a.swap s ∧ env.createPda a.swap s.bump_seed = some a.authority ∧
      a.userAuthority ∈ signers ∧ a.tokenProgram = env.tokenProgramId ∧ a.poolMint = s.pool_mint ∧
      a.poolFee = s.pool_fee_account ∧
      a.swapSource = vaultIn s dir ∧ a.swapDestination = vaultOut s dir ∧
      Thawed w (vaultIn s dir) ∧ Thawed w (vaultOut s dir) ∧
      Owns env w a.source (mintIn s dir) a.userAuthority ∧
      Takes env w a.destination (mintOut s dir) ∧ a.destination ≠ vaultOut s dir ∧
      ((∃ c, s.swap_curve = .linear c) ∨ Takes env w s.pool_fee_account s.pool_mint)
  | .depositAll a _ _ _ => ∃ s : SwapV1,
      PoolAt env w a.swap s ∧ env.createPda a.swap s.bump_seed = some a.authority ∧
      a.userAuthority ∈ signers ∧ a.tokenProgram = env.tokenProgramId ∧ a.poolMint = s.pool_mint ∧
      a.tokenA = s.token_a ∧ a.tokenB = s.token_b ∧ Thawed w s.token_a ∧ Thawed w s.token_b ∧
      Owns env w a.sourceA s.token_a_mint a.userAuthority ∧
      Owns env w a.sourceB s.token_b_mint a.userAuthority ∧ Takes env w a.destination s.pool_mint
  | .withdrawAll a _ _ _ => ∃ s : SwapV1,
      PoolAt env w a.swap s ∧ env.createPda a.swap s.bump_seed = some a.authority ∧
      a.userAuthority ∈ signers ∧ a.tokenProgram = env.tokenProgramId ∧ a.poolMint = s.pool_mint ∧
      a.fee = s.pool_fee_account ∧
      a.tokenA = s.token_a ∧ a.tokenB = s.token_b ∧ Thawed w s.token_a ∧ Thawed w s.token_b ∧
      Owns env w a.source s.pool_mint a.userAuthority ∧
      Takes env w a.destA s.token_a_mint ∧ a.destA ≠ s.token_a ∧
      Takes env w a.destB s.token_b_mint ∧ a.destB ≠ s.token_b ∧
      Takes env w s.pool_fee_account s.pool_mint
  | .depositSingle a _ _ => ∃ (s : SwapV1) (dir : TradeDirection),
      PoolAt env w a.swap s ∧ env.createPda a.swap s.bump_seed = some a.authority ∧
      a.userAuthority ∈ signers ∧ a.tokenProgram = env.tokenProgramId ∧ a.poolMint = s.pool_mint ∧
      a.tokenA = s.token_a ∧ a.tokenB = s.token_b ∧ Thawed w (vaultIn s dir) ∧
      Owns env w a.source (mintIn s dir) a.userAuthority ∧ Takes env w a.destination s.pool_mint
  | .withdrawSingle a _ _ => ∃ (s : SwapV1) (dir : TradeDirection),
      PoolAt env w a.swap s ∧ env.createPda a.swap s.bump_seed = some a.authority ∧
      a.userAuthority ∈ signers ∧ a.tokenProgram = env.tokenProgramId ∧ a.poolMint = s.pool_mint ∧
      a.fee = s.pool_fee_account ∧
      a.tokenA = s.token_a ∧ a.tokenB = s.token_b ∧ Thawed w (vaultIn s dir) ∧
      Owns env w a.source s.pool_mint a.userAuthority ∧
      Takes env w a.destination (mintIn s dir) ∧ a.destination ≠ vaultIn s dir ∧
      Takes env w s.pool_fee_account s.pool_mint
  | _ => False

/-! What can be wrong with the amounts of an instruction: nothing is left of them after rounding and
fees, a limit is missed, a number does not fit, the payer or a vault has too little, or a receiver or the
pool tokens have no room left.  (`Panic` is the program aborting.) -/

def linearErrs : List Err := [.swap .ZeroTradingTokens, .swap .ExceededSlippage,
  .token .InsufficientFunds, .token .Overflow, .Panic]
def swapErrs : List Err := [.swap .ZeroTradingTokens, .swap .ExceededSlippage,
  .swap .FeeCalculationFailure, .token .InsufficientFunds, .token .Overflow, .Panic]
def depositAllErrs : List Err := [.swap .UnsupportedCurveOperation, .swap .ZeroTradingTokens,
  .swap .ExceededSlippage, .swap .ConversionFailure, .token .InsufficientFunds, .token .Overflow,
  .Panic]
def withdrawAllErrs : List Err := [.swap .ZeroTradingTokens, .swap .ExceededSlippage,
  .swap .ConversionFailure, .token .InsufficientFunds, .token .Overflow, .Panic]
def depositSingleErrs : List Err := [.swap .ZeroTradingTokens, .swap .ExceededSlippage,
  .swap .ConversionFailure, .token .InsufficientFunds, .token .Overflow, .Panic]
def withdrawSingleErrs : List Err := [.swap .ZeroTradingTokens, .swap .ExceededSlippage,
  .swap .FeeCalculationFailure, .swap .CalculationFailure, .swap .ConversionFailure,
  .token .InsufficientFunds, .token .Overflow, .Panic]

def amountErrs : Instr → List Err
  | .swap _ _ _ => swapErrs
  | .depositAll _ _ _ _ => depositAllErrs
  | .withdrawAll _ _ _ _ => withdrawAllErrs
  | .depositSingle _ _ _ => depositSingleErrs
  | .withdrawSingle _ _ _ => withdrawSingleErrs
  | _ => []

/-- What the fuzz test lets pass when one of its instructions fails (`fuzz/src/instructions.rs`, l.377-392). -/
def tolerated : List Err := [.swap .CalculationFailure, .swap .ConversionFailure,
  .swap .FeeCalculationFailure, .swap .ExceededSlippage, .swap .ZeroTradingTokens,
  .swap .UnsupportedCurveOperation, .token .InsufficientFunds]

end Spec
end Verif
