import Verif.Spec.Freeze
import Verif.Spec.Room

/-
Specification for C93: a user who has what an instruction takes.
-/

namespace Verif
namespace Spec

open Processor

/-- Ready to offer up to `x` to the pool `s`: the accounts are the pool's, the user signs and has `x` tokens
in an account of theirs, `o` has an account for the proceeds, and none of the accounts is frozen. -/
structure Ready (env : Env) (w : World) (signers : List Pubkey) (a : SwapAccounts) (x : Nat) (s : SwapV1)
    (dir : TradeDirection) (o : Pubkey) : Prop where
  derived : env.createPda a.swap s.bump_seed = some a.authority
  signs : a.userAuthority ∈ signers
  vin : a.swapSource = vaultIn s dir
  vout : a.swapDestination = vaultOut s dir
  mint : a.poolMint = s.pool_mint
  fee : a.poolFee = s.pool_fee_account
  program : a.tokenProgram = env.tokenProgramId
  pays : CanPay env w a.source (mintIn s dir) a.userAuthority x
  source : OwnedBy env w a.source (mintIn s dir) a.userAuthority
  takes : Thawed w a.destination
  dest : OwnedBy env w a.destination (mintOut s dir) o
  thawedIn : Thawed w (vaultIn s dir)
  thawedOut : Thawed w (vaultOut s dir)

/-- Ready to give back `p` pool tokens for both tokens. -/
structure ReadyToLeave (env : Env) (w : World) (signers : List Pubkey) (a : WithdrawAllAccounts) (p : Nat)
    (s : SwapV1) (oA oB : Pubkey) : Prop where
  derived : env.createPda a.swap s.bump_seed = some a.authority
  signs : a.userAuthority ∈ signers
  isA : a.tokenA = s.token_a
  isB : a.tokenB = s.token_b
  mint : a.poolMint = s.pool_mint
  fee : a.fee = s.pool_fee_account
  program : a.tokenProgram = env.tokenProgramId
  pays : CanPay env w a.source s.pool_mint a.userAuthority p
  source : OwnedBy env w a.source s.pool_mint a.userAuthority
  takesA : Thawed w a.destA
  destA : OwnedBy env w a.destA s.token_a_mint oA
  takesB : Thawed w a.destB
  destB : OwnedBy env w a.destB s.token_b_mint oB
  thawedA : Thawed w s.token_a
  thawedB : Thawed w s.token_b

/-- Ready to give back up to `p` pool tokens for one of the tokens. -/
structure ReadyForOne (env : Env) (w : World) (signers : List Pubkey) (a : WithdrawSingleAccounts) (p : Nat)
    (s : SwapV1) (dir : TradeDirection) (o : Pubkey) : Prop where
  derived : env.createPda a.swap s.bump_seed = some a.authority
  signs : a.userAuthority ∈ signers
  isA : a.tokenA = s.token_a
  isB : a.tokenB = s.token_b
  mint : a.poolMint = s.pool_mint
  fee : a.fee = s.pool_fee_account
  program : a.tokenProgram = env.tokenProgramId
  pays : CanPay env w a.source s.pool_mint a.userAuthority p
  source : OwnedBy env w a.source s.pool_mint a.userAuthority
  takes : Thawed w a.destination
  dest : OwnedBy env w a.destination (mintIn s dir) o
  thawed : Thawed w (vaultIn s dir)

/-- Nobody outside `S` can freeze accounts in the mint `m`. -/
def FrozenOnlyBy (env : Env) (w : World) (m : Pubkey) (S : Pubkey → Prop) : Prop :=
  ∃ f, Freezer env w m f ∧ ∀ a, f = some a → S a

end Spec
end Verif
