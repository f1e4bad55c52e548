import Verif.Spec.Amount
import Verif.Spec.Plain
import Verif.Spec.Supply

/-
What it takes for trades and withdrawals to go through when no balance can come near the 64-bit limit.
-/

namespace Verif
namespace Spec
open Processor

/-- No two accounts in the mint hold more tokens together than fit in 64 bits. -/
def Scarce (env : Env) (w : World) (m : Pubkey) : Prop :=
  ∀ j k, j ≠ k → held env m (w j) + held env m (w k) < 2 ^ 64

/-- An offer of `x` to the linear pool `s` for at least `y`: the accounts are the pool's, the user signed,
the plain formula says `t` for `d`, `d` is there and within the limit, the user's account can pay `t`, and
none of the accounts is frozen or of another mint. -/
def TradeDue (env : Env) (w : World) (signers : List Pubkey) (a : SwapAccounts) (x y : UInt64)
    (s : SwapV1) (c : LinearPriceCurve) : Prop :=
  ∃ (dir : TradeDirection) (t d : Nat),
    env.createPda a.swap s.bump_seed = some a.authority ∧ a.userAuthority ∈ signers ∧
    a.swapSource = vaultIn s dir ∧ a.swapDestination = vaultOut s dir ∧ a.poolMint = s.pool_mint ∧
    a.poolFee = s.pool_fee_account ∧ a.tokenProgram = env.tokenProgramId ∧
    plainTrade c x.toNat (bal w (vaultIn s dir)).toNat (bal w (vaultOut s dir)).toNat dir =
      .trade t d ∧
    (d : Int) ≤ bal w (vaultOut s dir) ∧ y.toNat ≤ d ∧
    MaySpend env w a.source (mintIn s dir) a.userAuthority t ∧
    Thawed w (vaultIn s dir) ∧ Thawed w (vaultOut s dir) ∧
    Takes env w a.destination (mintOut s dir) ∧ a.destination ≠ vaultOut s dir

/-- A withdrawal of both tokens for `p` pool tokens, the fee on them included. -/
def WithdrawAllDue (env : Env) (w : World) (signers : List Pubkey) (a : WithdrawAllAccounts)
    (p minA minB : UInt64) (s : SwapV1) : Prop :=
  ∃ (fee burnt : Nat) (r : TradingTokenResult) (amtA amtB : Nat),
    env.createPda a.swap s.bump_seed = some a.authority ∧
    a.userAuthority ∈ signers ∧ a.tokenA = s.token_a ∧ a.tokenB = s.token_b ∧
    a.poolMint = s.pool_mint ∧ a.fee = s.pool_fee_account ∧ a.tokenProgram = env.tokenProgramId ∧
    WithdrawFee s a.source p.toNat fee ∧ burnt + fee = p.toNat ∧
    s.swap_curve.poolTokensToTradingTokens env.spl burnt (supply w s.pool_mint).toNat
      (bal w s.token_a).toNat (bal w s.token_b).toNat .Floor = .ok r ∧
    r.token_a_amount < 2 ^ 64 ∧ r.token_b_amount < 2 ^ 64 ∧
    (amtA : Int) = min (bal w s.token_a) r.token_a_amount ∧
    (amtB : Int) = min (bal w s.token_b) r.token_b_amount ∧
    minA.toNat ≤ amtA ∧ minB.toNat ≤ amtB ∧
    (amtA = 0 → bal w s.token_a = 0) ∧ (amtB = 0 → bal w s.token_b = 0) ∧
    MaySpendBoth env w a.source s.pool_mint a.userAuthority fee burnt ∧
    (0 < fee → Takes env w s.pool_fee_account s.pool_mint) ∧
    a.destA ≠ s.token_a ∧ a.destB ≠ s.token_b ∧
    (0 < amtA → Thawed w s.token_a ∧ Takes env w a.destA s.token_a_mint) ∧
    (0 < amtB → Thawed w s.token_b ∧ Takes env w a.destB s.token_b_mint)

/-- A withdrawal of `x` of one token for at most `maxPool` pool tokens, the fee included. -/
def WithdrawSingleDue (env : Env) (w : World) (signers : List Pubkey) (a : WithdrawSingleAccounts)
    (x maxPool : UInt64) (s : SwapV1) : Prop :=
  ∃ (dir : TradeDirection) (fee burnt : Nat),
    env.createPda a.swap s.bump_seed = some a.authority ∧
    a.userAuthority ∈ signers ∧ a.tokenA = s.token_a ∧ a.tokenB = s.token_b ∧
    a.poolMint = s.pool_mint ∧ a.fee = s.pool_fee_account ∧ a.tokenProgram = env.tokenProgramId ∧
    s.swap_curve.withdrawSingle env.spl x.toNat (bal w s.token_a).toNat (bal w s.token_b).toNat
      (supply w s.pool_mint).toNat dir s.fees = .ok burnt ∧
    WithdrawFee s a.source burnt fee ∧ 0 < burnt + fee ∧ burnt + fee ≤ maxPool.toNat ∧
    MaySpendBoth env w a.source s.pool_mint a.userAuthority fee burnt ∧
    (0 < fee → Takes env w s.pool_fee_account s.pool_mint) ∧
    Thawed w (vaultIn s dir) ∧ (x.toNat : Int) ≤ bal w (vaultIn s dir) ∧
    Takes env w a.destination (mintIn s dir) ∧ a.destination ≠ vaultIn s dir

end Spec
end Verif
