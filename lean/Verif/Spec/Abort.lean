import Verif.Spec.Claim

/-
Specification vocabulary for C75 and C76: when the program aborts.
-/

namespace Verif
namespace Spec

/-- `price² + 2·slope·A` in units of `10^-18`, both terms rounded down: the number whose square root
gives the position of a linear pool that holds `A` token A. -/
def rootArg (c : LinearPriceCurve) (A : Nat) : Nat :=
  c.initial_token_a_price_numerator.toNat ^ 2 * 10 ^ 18 /
      c.initial_token_a_price_denominator.toNat ^ 2 +
    2 * c.slope_numerator.toNat * (A * 10 ^ 18) / c.slope_denominator.toNat

/-- The number lies just below a power of four. -/
def Stuck (c : LinearPriceCurve) (A : Nat) : Prop :=
  ∃ h, 1 ≤ h ∧ (2 ^ 64 - 1) * 4 ^ h < rootArg c A ∧ rootArg c A < 2 ^ 64 * 4 ^ h

/-- What `x` tokens of the kind held by the token account `k` are worth in a pool with price `p`. -/
def givenWorth (w : World) (s : SwapV1) (p : Nat) (k : Pubkey) (x : Nat) : Nat :=
  match (w k).data with
  | .token t => if t.mint = s.token_a_mint then x else p * x
  | _ => 0

/-- The situations in which an instruction can abort. -/
inductive Aborts (env : Env) (w : World) : Instr → Prop
  /-- A swap on a linear pool that cannot compute its position. -/
  | linear {s : SwapV1} {c : LinearPriceCurve} (a : Processor.SwapAccounts) (x y : UInt64) :
      PoolAt env w a.swap s → s.swap_curve = .linear c → Stuck c (bal w s.token_a).toNat →
      Aborts env w (.swap a x y)
  /-- A one-sided deposit of more than `2^64` times the pool. -/
  | deposit {s : SwapV1} {p : UInt64} (a : Processor.DepositSingleAccounts) (x y : UInt64) :
      PoolAt env w a.swap s → s.swap_curve = .constantPrice p →
      2 ^ 64 * vaultsWorth w s p.toNat < givenWorth w s p.toNat a.source x.toNat →
      Aborts env w (.depositSingle a x y)
  /-- A one-sided withdrawal of more than `2^64` times the pool. -/
  | withdraw {s : SwapV1} {p : UInt64} (a : Processor.WithdrawSingleAccounts) (x y : UInt64) :
      PoolAt env w a.swap s → s.swap_curve = .constantPrice p →
      2 ^ 64 * vaultsWorth w s p.toNat < givenWorth w s p.toNat a.destination x.toNat →
      Aborts env w (.withdrawSingle a x y)
  /-- Initialisation of an account without any space. -/
  | blankPrice (a : Processor.InitAccounts) (f : Fees) (p : UInt64) :
      (w a.swap).data = .raw [] → Aborts env w (.initConstantPrice a f p)
  | blankLinear (a : Processor.InitAccounts) (c : LinearPriceCurve) :
      (w a.swap).data = .raw [] → Aborts env w (.initLinearPrice a c)

end Spec
end Verif
