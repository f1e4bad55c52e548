import Verif.Model.Wire

/-
Model of `error.rs`: the numbers under which failures reach whoever sent the transaction.
-/

namespace Verif

/-- `e as u32` for a `SwapError`, error.rs l.9-105 and l.106-110. -/
def SwapError.code : SwapError → Nat
  | .AlreadyInUse => 0
  | .InvalidProgramAddress => 1
  | .InvalidOwner => 2
  | .InvalidOutputOwner => 3
  | .ExpectedMint => 4
  | .ExpectedAccount => 5
  | .EmptySupply => 6
  | .InvalidSupply => 7
  | .InvalidDelegate => 8
  | .InvalidInput => 9
  | .IncorrectSwapAccount => 10
  | .IncorrectPoolMint => 11
  | .InvalidOutput => 12
  | .CalculationFailure => 13
  | .InvalidInstruction => 14
  | .RepeatedMint => 15
  | .ExceededSlippage => 16
  | .InvalidCloseAuthority => 17
  | .InvalidFreezeAuthority => 18
  | .IncorrectFeeAccount => 19
  | .ZeroTradingTokens => 20
  | .FeeCalculationFailure => 21
  | .ConversionFailure => 22
  | .InvalidFee => 23
  | .IncorrectTokenProgramId => 24
  | .UnsupportedCurveType => 25
  | .InvalidCurve => 26
  | .UnsupportedCurveOperation => 27

/-- The same numbering in the token program (spl-token 3.3.0 `error.rs`, not in `/repo`).  `none`
marks failures that spl-token reports with a built-in `ProgramError`.  The two signer-count errors
(7 and 8) are one in the model. -/
def TokenError.code : TokenError → Option Nat
  | .InsufficientFunds => some 1
  | .MintMismatch => some 3
  | .OwnerMismatch => some 4
  | .FixedSupply => some 5
  | .AlreadyInUse => some 6
  | .InvalidNumberOfSigners => some 7
  | .NonNativeHasBalance => some 11
  | .InvalidInstruction => some 12
  | .InvalidState => some 13
  | .Overflow => some 14
  | .AuthorityTypeNotSupported => some 15
  | .MintCannotFreeze => some 16
  | .AccountFrozen => some 17
  | .NonNativeNotSupported => some 19
  | .InvalidAccount => none
  | .MissingSignature => none

/-- Anchor's numbers (anchor-lang 0.20.1 `error.rs`, not in `/repo`). -/
def AnchorError.code : AnchorError → Nat
  | .InstructionMissing => 100
  | .InstructionFallbackNotFound => 101
  | .InstructionDidNotDeserialize => 102
  | .ConstraintMut => 2000
  | .ConstraintSigner => 2002
  | .AccountNotEnoughKeys => 3005

/-- What the sender of a failed transaction is told: a custom number, a built-in error of the runtime
(not told apart here), or that the program aborted. -/
inductive Report where
  | custom (n : Nat)
  | builtin
  | aborted
  deriving Repr, DecidableEq

/-- How an error reaches the sender: `ProgramError::Custom(e as u32)` for the program's own errors,
error.rs l.106-110.  The token program is called with `invoke_signed` (processor.rs l.89-93, l.117,
l.141-145); when the callee fails the runtime aborts the whole transaction and reports the callee's
number. -/
def Err.report : Err → Report
  | .anchor e => .custom e.code
  | .swap e => .custom e.code
  | .token e => match e.code with
    | some n => .custom n
    | none => .builtin
  | .Panic => .aborted
  | _ => .builtin

end Verif
