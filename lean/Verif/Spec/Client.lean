import Verif.Model.Client
import Verif.Spec.Chain
import Verif.Spec.Wire

/-
What the TypeScript client should show and send.
-/

namespace Verif
namespace Spec

/-- The ledger holds no account of the program. -/
def Unused (env : Env) (w : World) : Prop := ∀ k, (w k).owner ≠ env.programId

/-- Number of a curve kind in the client's `CurveType` table and in the program's. -/
def kindNumber : Curve → Nat
  | .constantProduct => 0
  | .constantPrice _ => 1
  | .stable _ => 2
  | .offset _ => 3
  | .linear _ => 30

/-- What a user of the client should see of the pool at `k` with configuration `s`. -/
def view (env : Env) (k : Pubkey) (s : SwapV1) : Client.Pool where
  tokenProgramId := s.token_program_id
  poolToken := s.pool_mint
  feeAccount := s.pool_fee_account
  authority := (env.findPda k).1
  tokenAccountA := s.token_a
  tokenAccountB := s.token_b
  mintA := s.token_a_mint
  mintB := s.token_b_mint
  tradeFeeNumerator := s.fees.trade_fee_numerator.toNat
  tradeFeeDenominator := s.fees.trade_fee_denominator.toNat
  ownerTradeFeeNumerator := s.fees.owner_trade_fee_numerator.toNat
  ownerTradeFeeDenominator := s.fees.owner_trade_fee_denominator.toNat
  ownerWithdrawFeeNumerator := s.fees.owner_withdraw_fee_numerator.toNat
  ownerWithdrawFeeDenominator := s.fees.owner_withdraw_fee_denominator.toNat
  hostFeeNumerator := s.fees.host_fee_numerator.toNat
  hostFeeDenominator := s.fees.host_fee_denominator.toNat
  curveType := kindNumber s.swap_curve

/-- Instructions the client can build, with any arguments it accepts. -/
inductive Built : Client.Ix → Prop
  | init {a f c p ix} (h : Client.initIx a f c p = some ix) : Built ix
  | swap {a host x y ix} (h : Client.swapIx a host x y = some ix) : Built ix
  | depositAll {a x y z ix} (h : Client.depositAllIx a x y z = some ix) : Built ix
  | withdrawAll {a x y z ix} (h : Client.withdrawAllIx a x y z = some ix) : Built ix
  | depositSingle {a x y ix} (h : Client.depositSingleIx a x y = some ix) : Built ix
  | withdrawSingle {a x y ix} (h : Client.withdrawSingleIx a x y = some ix) : Built ix

/-- `ix` is what the client builds when asked for `i` by the user authority `u`. -/
inductive BuiltFor : Instr → Pubkey → Client.Ix → Prop
  | swap (a : Processor.SwapAccounts) (host : Option Pubkey) (x y : UInt64) {ix}
      (h : Client.swapIx a host x.toNat y.toNat = some ix) : BuiltFor (.swap a x y) a.userAuthority ix
  | depositAll (a : Processor.DepositAllAccounts) (x y z : UInt64) {ix}
      (h : Client.depositAllIx a x.toNat y.toNat z.toNat = some ix) :
      BuiltFor (.depositAll a x y z) a.userAuthority ix
  | withdrawAll (a : Processor.WithdrawAllAccounts) (x y z : UInt64) {ix}
      (h : Client.withdrawAllIx a x.toNat y.toNat z.toNat = some ix) :
      BuiltFor (.withdrawAll a x y z) a.userAuthority ix
  | depositSingle (a : Processor.DepositSingleAccounts) (x y : UInt64) {ix}
      (h : Client.depositSingleIx a x.toNat y.toNat = some ix) :
      BuiltFor (.depositSingle a x y) a.userAuthority ix
  | withdrawSingle (a : Processor.WithdrawSingleAccounts) (x y : UInt64) {ix}
      (h : Client.withdrawSingleIx a x.toNat y.toNat = some ix) :
      BuiltFor (.withdrawSingle a x y) a.userAuthority ix

end Spec
end Verif
