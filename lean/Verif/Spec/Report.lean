import Verif.Model.Error
import Verif.Spec.Exec
import Verif.Spec.Guard

/-
What the number reported for a failed instruction should tell its sender.
-/

namespace Verif

/-- The account an instruction names as the pool's authority. -/
def Instr.authority : Instr → Pubkey
  | .initConstantPrice a _ _ => a.authority
  | .initLinearPrice a _ => a.authority
  | .swap a _ _ => a.authority
  | .depositAll a _ _ _ => a.authority
  | .withdrawAll a _ _ _ => a.authority
  | .depositSingle a _ _ => a.authority
  | .withdrawSingle a _ _ => a.authority

/-- The instruction works on a pool that exists already. -/
def Instr.Trades : Instr → Prop
  | .initConstantPrice _ _ _ => False
  | .initLinearPrice _ _ => False
  | _ => True

namespace Spec

/-- The program's own errors in the order of their numbers. -/
def errors : List SwapError :=
  [.AlreadyInUse, .InvalidProgramAddress, .InvalidOwner, .InvalidOutputOwner, .ExpectedMint,
   .ExpectedAccount, .EmptySupply, .InvalidSupply, .InvalidDelegate, .InvalidInput,
   .IncorrectSwapAccount, .IncorrectPoolMint, .InvalidOutput, .CalculationFailure,
   .InvalidInstruction, .RepeatedMint, .ExceededSlippage, .InvalidCloseAuthority,
   .InvalidFreezeAuthority, .IncorrectFeeAccount, .ZeroTradingTokens, .FeeCalculationFailure,
   .ConversionFailure, .InvalidFee, .IncorrectTokenProgramId, .UnsupportedCurveType, .InvalidCurve,
   .UnsupportedCurveOperation]

/-- The numbers that stand for one error of this program and one of the token program, either of
which an instruction can end with. -/
def shared : List Nat := [1, 3, 4, 5, 17]

/-- The numbers of the checks that come before the program proper: the data is too short for a tag, the
tag or the arguments cannot be read, an account is not writable, has not signed, or is missing. -/
def early : List (Nat × AnchorError) :=
  [(100, .InstructionMissing), (101, .InstructionFallbackNotFound),
   (102, .InstructionDidNotDeserialize), (2000, .ConstraintMut), (2002, .ConstraintSigner),
   (3005, .AccountNotEnoughKeys)]

/-- What the remaining numbers stand for. -/
def sole (n : Nat) : Option Err :=
  if n = 14 then some (.token .Overflow)
  else if n < 100 then errors[n]?.map .swap
  else (early.lookup n).map .anchor

/-- What a number stands for when the pool exists and the instruction names its authority. -/
def meaning (n : Nat) : Option Err :=
  if n = 1 then some (.token .InsufficientFunds)
  else if n = 3 then some (.token .MintMismatch)
  else if n = 4 then some (.token .OwnerMismatch)
  else if n = 14 then some (.token .Overflow)
  else if n = 17 then some (.token .AccountFrozen)
  else errors[n]?.map .swap

/-- `u` is a delegate of the account at `k` for less than `x`. -/
def ShortAllowance (w : World) (k u : Pubkey) (x : Nat) : Prop :=
  ∃ t, tokenAt w k = some t ∧ t.delegate = some u ∧ t.delegated_amount.toNat < x

/-- What is wrong on the ledger when a swap by `u` of `x` from `src` into the vault `vin`, paying from
the vault `vout` to `dst`, reports a number of the token program; `fee` is the pool's fee account and
`mint` its mint. -/
def SwapTrouble (w : World) (u src vin vout dst fee mint : Pubkey) (x : Nat) : Nat → Prop
  | 1 => bal w src < x ∨ ShortAllowance w src u x
  | 3 => mintOf w src ≠ mintOf w vin ∨ mintOf w dst ≠ mintOf w vout ∨ mintOf w fee ≠ some mint
  | 4 => ¬ Spender w src u
  | 17 => ∃ k ∈ [src, vin, vout, dst, fee], Frozen w k
  | _ => True

end Spec
end Verif
