import Verif.Spec.Room
import Verif.Spec.Exchange

/-
Trades with constant-price pools in plain numbers.
-/

namespace Verif
namespace Spec
open Processor

/-- An offer of `s` at the price `p` under the fees `f`: what is paid, fees included, and what is received.
Buyers of token B get as many as the offer less fees pays for and keep the remainder. -/
def fixedQuote (p : Nat) (f : Fees) (s : Nat) (dir : TradeDirection) : Option (Nat × Nat) :=
  let fees := feeOf f.trade_fee_numerator.toNat f.trade_fee_denominator.toNat s +
    feeOf f.owner_trade_fee_numerator.toNat f.owner_trade_fee_denominator.toNat s
  let net := s - fees
  let d := match dir with | .AtoB => net / p | .BtoA => p * net
  let t := match dir with | .AtoB => p * (net / p) | .BtoA => net
  if fees ≤ s ∧ 0 < t ∧ 0 < d then some (t + fees, d) else none

/-- An offer of `x` to the pool `s`, which sells at the price `p`, for at least `y`: the accounts are the
pool's, the user signed, the quote is `t` for `d`, `d` is there and within the limit, the user's account can
pay `t`, and none of the accounts is frozen or of another mint. -/
def FixedDue (env : Env) (w : World) (signers : List Pubkey) (a : SwapAccounts) (x y : UInt64)
    (s : SwapV1) (p : Nat) : Prop :=
  ∃ (dir : TradeDirection) (t d : Nat),
    env.createPda a.swap s.bump_seed = some a.authority ∧ a.userAuthority ∈ signers ∧
    a.swapSource = vaultIn s dir ∧ a.swapDestination = vaultOut s dir ∧ a.poolMint = s.pool_mint ∧
    a.poolFee = s.pool_fee_account ∧ a.tokenProgram = env.tokenProgramId ∧
    fixedQuote p s.fees x.toNat dir = some (t, d) ∧
    (d : Int) ≤ bal w (vaultOut s dir) ∧ y.toNat ≤ d ∧
    MaySpend env w a.source (mintIn s dir) a.userAuthority t ∧
    Thawed w (vaultIn s dir) ∧ Thawed w (vaultOut s dir) ∧
    Takes env w a.destination (mintOut s dir) ∧ a.destination ≠ vaultOut s dir

end Spec
end Verif
