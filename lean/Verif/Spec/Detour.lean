import Verif.Spec.Pools

/-
The detour around a one-sided deposit or withdrawal: trade one token for the other, and deposit or
withdraw both.  The repository promises (curve/calculator.rs l.207-216 and l.290-297, in the comments
of its test helpers) that the two ways agree within 0.5%.  The amounts are those of the curve
calculations without fees, `swap_without_fees`, `deposit_single_token_type`,
`pool_tokens_to_trading_tokens` and `withdraw_single_token_type_exact_out`; the pool's balances follow
every step.
-/

namespace Verif
namespace Spec

/-- The other direction (curve/calculator.rs l.38-45, `TradeDirection::opposite`). -/
def otherWay : TradeDirection → TradeDirection
  | .AtoB => .BtoA
  | .BtoA => .AtoB

/-- Somebody holding `s` of the traded-in token trades at most `h` of it for the other token, deposits
what is left of it, then deposits the tokens they received: `m` pool tokens in all. -/
def DepositDetour (e : SplEnv) (c : Curve) (q : Pool) (dir : TradeDirection) (s h m : Nat) : Prop :=
  ∃ (r : SwapWithoutFeesResult) (q₁ q₂ : Pool) (m₁ m₂ : Nat),
    h ≤ s ∧ c.swapWithoutFees e h (q.src dir) (q.dst dir) dir = .ok r ∧
    r.destination_amount_swapped ≤ q.dst dir ∧
    q₁ = q.trade dir r.source_amount_swapped r.destination_amount_swapped 0 ∧
    c.calcDepositSingle e (s - r.source_amount_swapped) q₁.A q₁.B q₁.S dir = .ok m₁ ∧
    q₂ = q₁.trade dir (s - r.source_amount_swapped) 0 m₁ ∧
    c.calcDepositSingle e r.destination_amount_swapped q₂.A q₂.B q₂.S (otherWay dir) = .ok m₂ ∧
    m = m₁ + m₂

/-- The repository's helper `check_deposit_token_conversion` (curve/calculator.rs l.217-287): half is
traded, and the second deposit is computed on the balances from before the first one. -/
def HelperDeposit (e : SplEnv) (c : Curve) (q : Pool) (dir : TradeDirection) (s m : Nat) : Prop :=
  ∃ (r : SwapWithoutFeesResult) (q₁ : Pool) (m₁ m₂ : Nat),
    c.swapWithoutFees e (s / 2) (q.src dir) (q.dst dir) dir = .ok r ∧
    r.destination_amount_swapped ≤ q.dst dir ∧
    q₁ = q.trade dir r.source_amount_swapped r.destination_amount_swapped 0 ∧
    c.calcDepositSingle e (s - r.source_amount_swapped) q₁.A q₁.B q₁.S dir = .ok m₁ ∧
    c.calcDepositSingle e r.destination_amount_swapped q₁.A q₁.B (q₁.S + m₁) (otherWay dir) =
      .ok m₂ ∧
    m = m₁ + m₂

/-- Of the two amounts withdrawn, the one traded in direction `dir`, and the one kept. -/
def given (dir : TradeDirection) (w : TradingTokenResult) : Nat :=
  match dir with | .AtoB => w.token_a_amount | .BtoA => w.token_b_amount
def kept (dir : TradeDirection) (w : TradingTokenResult) : Nat :=
  match dir with | .AtoB => w.token_b_amount | .BtoA => w.token_a_amount

/-- Somebody burns `n` pool tokens for both tokens and trades the one in direction `dir`: they hold
`x` of the other token afterwards. -/
def WithdrawDetour (e : SplEnv) (c : Curve) (q : Pool) (dir : TradeDirection) (n x : Nat) : Prop :=
  ∃ (w : TradingTokenResult) (r : SwapWithoutFeesResult),
    c.poolTokensToTradingTokens e n q.S q.A q.B .Floor = .ok w ∧
    w.token_a_amount ≤ q.A ∧ w.token_b_amount ≤ q.B ∧
    c.swapWithoutFees e (given dir w) (q.src dir - given dir w) (q.dst dir - kept dir w) dir =
      .ok r ∧
    r.destination_amount_swapped ≤ q.dst dir - kept dir w ∧
    x = kept dir w + r.destination_amount_swapped

/-- The promised closeness: the two amounts differ by at most 0.5% of `total`, or by one. -/
def Close (total other : Nat) : Prop :=
  total - other ≤ max 1 (total * 50 / 10000) ∧ other - total ≤ max 1 (total * 50 / 10000)

instance (x y : Nat) : Decidable (Close x y) := by unfold Close; infer_instance

end Spec
end Verif
