import Verif.Spec.Live

/-
What it takes, exactly, for a swap, a deposit or a withdrawal to go through.
-/

namespace Verif
namespace Spec
open Processor

/-- Whoever signs as `u` may take `x` tokens of `mint` out of the token account at `k`: it holds them,
is not frozen, and belongs to `u`, or `u` is its delegate with an allowance of at least `x`.  (A delegate
is held to the allowance even if they own the account.) -/
def MaySpend (env : Env) (w : World) (k mint u : Pubkey) (x : Nat) : Prop :=
  (w k).owner = env.tokenProgramId ∧ ∃ t, tokenAt w k = some t ∧ t.mint = mint ∧ t.frozen = false ∧
    x ≤ t.amount.toNat ∧
    (t.delegate = some u → x ≤ t.delegated_amount.toNat) ∧ (t.delegate ≠ some u → t.owner = u)

/-- The same for `x` tokens as a fee (if any) followed by `y` tokens burnt.  An allowance that the fee
uses up exactly is gone before the burn, which then takes the owner. -/
def MaySpendBoth (env : Env) (w : World) (k mint u : Pubkey) (x y : Nat) : Prop :=
  (w k).owner = env.tokenProgramId ∧ ∃ t, tokenAt w k = some t ∧ t.mint = mint ∧ t.frozen = false ∧
    x + y ≤ t.amount.toNat ∧
    (t.delegate = some u → 0 < x ∧ x = t.delegated_amount.toNat → t.owner = u) ∧
    (t.delegate = some u → ¬ (0 < x ∧ x = t.delegated_amount.toNat) →
      x + y ≤ t.delegated_amount.toNat) ∧
    (t.delegate ≠ some u → t.owner = u)

/-- The pool does not trade its own pool tokens. -/
def Ordinary (s : SwapV1) : Prop := s.pool_mint ≠ s.token_a_mint ∧ s.pool_mint ≠ s.token_b_mint

/-- Pool tokens charged as a fee on a withdrawal of `p` out of the account `source`. -/
def WithdrawFee (s : SwapV1) (source : Pubkey) (p fee : Nat) : Prop :=
  (source = s.pool_fee_account → fee = 0) ∧
  (source ≠ s.pool_fee_account → s.fees.ownerWithdrawFee p = .ok fee)

/-- A swap of `x` for at least `y`: the accounts are the pool's, the user signed, the curve quotes `r`
for the vaults' balances, `r` is within the limit, the user's account can pay it, the vault on that side
has room, the other vault is not frozen, the user's other account can take the proceeds, and the owner's
fee, if any, can be minted. -/
def SwapServed (env : Env) (w : World) (signers : List Pubkey) (a : SwapAccounts) (x y : UInt64) :
    Prop :=
  ∃ (s : SwapV1) (dir : TradeDirection) (tin tout : TokenAccount) (m : Mint) (r : SwapResult)
    (fee : Nat),
    PoolAt env w a.swap s ∧ env.createPda a.swap s.bump_seed = some a.authority ∧
    a.userAuthority ∈ signers ∧
    a.swapSource = vaultIn s dir ∧ a.swapDestination = vaultOut s dir ∧ a.poolMint = s.pool_mint ∧
    a.poolFee = s.pool_fee_account ∧ a.tokenProgram = env.tokenProgramId ∧
    tokenAt w (vaultIn s dir) = some tin ∧ tokenAt w (vaultOut s dir) = some tout ∧
    mintAt w s.pool_mint = some m ∧
    s.swap_curve.swap env.spl x.toNat tin.amount.toNat tout.amount.toNat dir s.fees = .ok r ∧
    y.toNat ≤ r.destination_amount_swapped ∧
    MaySpend env w a.source (mintIn s dir) a.userAuthority r.source_amount_swapped ∧
    CanReceive env w (vaultIn s dir) (mintIn s dir) r.source_amount_swapped ∧
    Thawed w (vaultOut s dir) ∧
    CanReceive env w a.destination (mintOut s dir) r.destination_amount_swapped ∧
    a.destination ≠ vaultOut s dir ∧
    s.swap_curve.withdrawSingle env.spl r.owner_fee (afterA r dir) (afterB r dir) m.supply.toNat dir
      s.fees = .ok fee ∧
    (0 < fee → CanReceive env w s.pool_fee_account s.pool_mint fee ∧ m.supply.toNat + fee < 2 ^ 64)

/-- A deposit of both tokens for `p` pool tokens (for the initial number of pool tokens if there are
none). -/
def DepositAllServed (env : Env) (w : World) (signers : List Pubkey) (a : DepositAllAccounts)
    (p maxA maxB : UInt64) : Prop :=
  ∃ (s : SwapV1) (tA tB : TokenAccount) (m : Mint) (pool sup amtA amtB : Nat),
    PoolAt env w a.swap s ∧ env.createPda a.swap s.bump_seed = some a.authority ∧
    a.userAuthority ∈ signers ∧ a.tokenA = s.token_a ∧ a.tokenB = s.token_b ∧
    a.poolMint = s.pool_mint ∧ a.tokenProgram = env.tokenProgramId ∧
    tokenAt w s.token_a = some tA ∧ tokenAt w s.token_b = some tB ∧
    mintAt w s.pool_mint = some m ∧ s.swap_curve.allowsDeposits = true ∧
    (m.supply ≠ 0 → pool = p.toNat ∧ sup = m.supply.toNat) ∧
    (m.supply = 0 → pool = 1000000000 ∧ sup = 1000000000) ∧
    s.swap_curve.poolTokensToTradingTokens env.spl pool sup tA.amount.toNat tB.amount.toNat
      .Ceiling = .ok ⟨amtA, amtB⟩ ∧
    0 < amtA ∧ amtA ≤ maxA.toNat ∧ 0 < amtB ∧ amtB ≤ maxB.toNat ∧
    MaySpend env w a.sourceA s.token_a_mint a.userAuthority amtA ∧
    CanReceive env w s.token_a s.token_a_mint amtA ∧
    MaySpend env w a.sourceB s.token_b_mint a.userAuthority amtB ∧
    CanReceive env w s.token_b s.token_b_mint amtB ∧
    CanReceive env w a.destination s.pool_mint pool ∧ m.supply.toNat + pool < 2 ^ 64

/-- A deposit of `x` of one token, for at least `minPool` pool tokens; which token is told by the
account it comes from. -/
def DepositSingleServed (env : Env) (w : World) (signers : List Pubkey) (a : DepositSingleAccounts)
    (x minPool : UInt64) : Prop :=
  ∃ (s : SwapV1) (dir : TradeDirection) (tA tB : TokenAccount) (m : Mint) (pool : Nat),
    PoolAt env w a.swap s ∧ env.createPda a.swap s.bump_seed = some a.authority ∧
    a.userAuthority ∈ signers ∧ a.tokenA = s.token_a ∧ a.tokenB = s.token_b ∧
    a.poolMint = s.pool_mint ∧ a.tokenProgram = env.tokenProgramId ∧
    tokenAt w s.token_a = some tA ∧ tokenAt w s.token_b = some tB ∧
    mintAt w s.pool_mint = some m ∧
    (m.supply ≠ 0 → s.swap_curve.depositSingle env.spl x.toNat tA.amount.toNat tB.amount.toNat
      m.supply.toNat dir s.fees = .ok pool) ∧
    (m.supply = 0 → pool = 1000000000) ∧
    0 < pool ∧ minPool.toNat ≤ pool ∧
    MaySpend env w a.source (mintIn s dir) a.userAuthority x.toNat ∧
    CanReceive env w (vaultIn s dir) (mintIn s dir) x.toNat ∧
    CanReceive env w a.destination s.pool_mint pool ∧ m.supply.toNat + pool < 2 ^ 64

/-- A withdrawal of both tokens for `p` pool tokens, the fee on them included. -/
def WithdrawAllServed (env : Env) (w : World) (signers : List Pubkey) (a : WithdrawAllAccounts)
    (p minA minB : UInt64) : Prop :=
  ∃ (s : SwapV1) (tA tB : TokenAccount) (m : Mint) (fee burnt : Nat) (r : TradingTokenResult)
    (amtA amtB : Nat),
    PoolAt env w a.swap s ∧ env.createPda a.swap s.bump_seed = some a.authority ∧
    a.userAuthority ∈ signers ∧ a.tokenA = s.token_a ∧ a.tokenB = s.token_b ∧
    a.poolMint = s.pool_mint ∧ a.fee = s.pool_fee_account ∧ a.tokenProgram = env.tokenProgramId ∧
    tokenAt w s.token_a = some tA ∧ tokenAt w s.token_b = some tB ∧
    mintAt w s.pool_mint = some m ∧
    WithdrawFee s a.source p.toNat fee ∧ burnt + fee = p.toNat ∧
    s.swap_curve.poolTokensToTradingTokens env.spl burnt m.supply.toNat tA.amount.toNat
      tB.amount.toNat .Floor = .ok r ∧
    r.token_a_amount < 2 ^ 64 ∧ r.token_b_amount < 2 ^ 64 ∧
    amtA = min tA.amount.toNat r.token_a_amount ∧ amtB = min tB.amount.toNat r.token_b_amount ∧
    minA.toNat ≤ amtA ∧ minB.toNat ≤ amtB ∧
    (amtA = 0 → tA.amount = 0) ∧ (amtB = 0 → tB.amount = 0) ∧
    MaySpendBoth env w a.source s.pool_mint a.userAuthority fee burnt ∧ burnt ≤ m.supply.toNat ∧
    (0 < fee → CanReceive env w s.pool_fee_account s.pool_mint fee) ∧
    a.destA ≠ s.token_a ∧ a.destB ≠ s.token_b ∧
    (0 < amtA → Thawed w s.token_a ∧ CanReceive env w a.destA s.token_a_mint amtA) ∧
    (0 < amtB → Thawed w s.token_b ∧ CanReceive env w a.destB s.token_b_mint amtB)

/-- A withdrawal of `x` of one token for at most `maxPool` pool tokens, the fee included; which token is
told by the account it goes to. -/
def WithdrawSingleServed (env : Env) (w : World) (signers : List Pubkey) (a : WithdrawSingleAccounts)
    (x maxPool : UInt64) : Prop :=
  ∃ (s : SwapV1) (dir : TradeDirection) (tA tB : TokenAccount) (m : Mint) (fee burnt : Nat),
    PoolAt env w a.swap s ∧ env.createPda a.swap s.bump_seed = some a.authority ∧
    a.userAuthority ∈ signers ∧ a.tokenA = s.token_a ∧ a.tokenB = s.token_b ∧
    a.poolMint = s.pool_mint ∧ a.fee = s.pool_fee_account ∧ a.tokenProgram = env.tokenProgramId ∧
    tokenAt w s.token_a = some tA ∧ tokenAt w s.token_b = some tB ∧
    mintAt w s.pool_mint = some m ∧
    s.swap_curve.withdrawSingle env.spl x.toNat tA.amount.toNat tB.amount.toNat m.supply.toNat dir
      s.fees = .ok burnt ∧
    WithdrawFee s a.source burnt fee ∧ 0 < burnt + fee ∧ burnt + fee ≤ maxPool.toNat ∧
    MaySpendBoth env w a.source s.pool_mint a.userAuthority fee burnt ∧ burnt ≤ m.supply.toNat ∧
    (0 < fee → CanReceive env w s.pool_fee_account s.pool_mint fee) ∧
    Thawed w (vaultIn s dir) ∧ (x.toNat : Int) ≤ bal w (vaultIn s dir) ∧
    CanReceive env w a.destination (mintIn s dir) x.toNat ∧ a.destination ≠ vaultIn s dir

end Spec
end Verif
