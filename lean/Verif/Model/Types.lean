import Verif.Model.Res

/-
Types shared by all curves (`curve/calculator.rs`, `error.rs`).
-/

namespace Verif

/-- `TradeDirection`, curve/calculator.rs l.28-35. -/
inductive TradeDirection where
  | AtoB
  | BtoA
  deriving Repr, DecidableEq, Inhabited

/-- `RoundDirection`, curve/calculator.rs l.38-46. -/
inductive RoundDirection where
  | Floor
  | Ceiling
  deriving Repr, DecidableEq, Inhabited

/-- `SwapWithoutFeesResult`, curve/calculator.rs l.60-66. -/
structure SwapWithoutFeesResult where
  source_amount_swapped : Nat
  destination_amount_swapped : Nat
  deriving Repr, DecidableEq, Inhabited

/-- `TradingTokenResult`, curve/calculator.rs l.69-75. -/
structure TradingTokenResult where
  token_a_amount : Nat
  token_b_amount : Nat
  deriving Repr, DecidableEq, Inhabited

/-- `map_zero_to_none`, curve/calculator.rs l.19-25. -/
def mapZeroToNone (x : Nat) : Res Nat := if x = 0 then .none else .ok x

/-- `INITIAL_SWAP_POOL_AMOUNT`, curve/calculator.rs l.12. -/
def INITIAL_SWAP_POOL_AMOUNT : Nat := 1000000000

/-- `SwapError`, error.rs (the variants the modelled code can return, in source order). -/
inductive SwapError where
  | AlreadyInUse | InvalidProgramAddress | InvalidOwner | InvalidOutputOwner
  | ExpectedMint | ExpectedAccount | EmptySupply | InvalidSupply | InvalidDelegate
  | InvalidInput | IncorrectSwapAccount | IncorrectPoolMint | InvalidOutput
  | CalculationFailure | InvalidInstruction | RepeatedMint | ExceededSlippage
  | InvalidCloseAuthority | InvalidFreezeAuthority | IncorrectFeeAccount
  | ZeroTradingTokens | FeeCalculationFailure | ConversionFailure | InvalidFee
  | IncorrectTokenProgramId | UnsupportedCurveType | InvalidCurve
  | UnsupportedCurveOperation
  deriving Repr, DecidableEq, Inhabited

end Verif
