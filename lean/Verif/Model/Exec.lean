import Verif.Model.Processor

/-
Model of `lib.rs` and `instructions/*.rs`: the seven instructions with Anchor's signer checks.
-/

namespace Verif

open Processor

/-- An instruction with its accounts and arguments, lib.rs l.38-165. -/
inductive Instr where
  | initConstantPrice (a : InitAccounts) (fees : Fees) (token_b_price : UInt64)
  | initLinearPrice (a : InitAccounts) (c : LinearPriceCurve)
  | swap (a : SwapAccounts) (amountIn minOut : UInt64)
  | depositAll (a : DepositAllAccounts) (poolTokens maxA maxB : UInt64)
  | withdrawAll (a : WithdrawAllAccounts) (poolTokens minA minB : UInt64)
  | depositSingle (a : DepositSingleAccounts) (amountIn minPool : UInt64)
  | withdrawSingle (a : WithdrawSingleAccounts) (amountOut maxPool : UInt64)
  deriving DecidableEq

/-- Fees hard-coded for linear pools, lib.rs l.84-93. -/
def linearFees : Fees := ⟨0, 1, 0, 1, 0, 1, 0, 1⟩

/-- The account that must have signed: `token_swap` for initialisation
(instructions/initialize.rs l.14-15), `user_transfer_authority` otherwise (e.g.
instructions/swap.rs l.12-13). -/
def Instr.signer : Instr → Pubkey
  | .initConstantPrice a _ _ => a.swap
  | .initLinearPrice a _ => a.swap
  | .swap a _ _ => a.userAuthority
  | .depositAll a _ _ _ => a.userAuthority
  | .withdrawAll a _ _ _ => a.userAuthority
  | .depositSingle a _ _ => a.userAuthority
  | .withdrawSingle a _ _ => a.userAuthority

/-- The pool account named by an instruction. -/
def Instr.pool : Instr → Pubkey
  | .initConstantPrice a _ _ => a.swap
  | .initLinearPrice a _ => a.swap
  | .swap a _ _ => a.swap
  | .depositAll a _ _ _ => a.swap
  | .withdrawAll a _ _ _ => a.swap
  | .depositSingle a _ _ => a.swap
  | .withdrawSingle a _ _ => a.swap

/-- Execute one instruction in a transaction signed by `signers`: Anchor's signer check, then
the handler (lib.rs l.38-165, instructions/*.rs).  The swap handler passes exactly ten accounts,
never a host account (instructions/swap.rs l.43-54). -/
def exec (env : Env) (signers : List Pubkey) (i : Instr) (w : World) : Except Err World := do
  require (i.signer ∈ signers) .MissingRequiredSignature
  match i with
  | .initConstantPrice a fees p => processInitialize env signers fees (.constantPrice p) a w
  | .initLinearPrice a c => processInitialize env signers linearFees (.linear c) a w
  | .swap a x y => processSwap env signers x y a none w
  | .depositAll a x y z => processDepositAll env signers x y z a w
  | .withdrawAll a x y z => processWithdrawAll env signers x y z a w
  | .depositSingle a x y => processDepositSingle env signers x y a w
  | .withdrawSingle a x y => processWithdrawSingle env signers x y a w

end Verif
