import Verif.Spec.Chain
import Verif.Spec.Linear
import Verif.Spec.Pools

/-
What a user needs for the token side of an instruction to go through.
-/

namespace Verif
namespace Spec

/-- `u` can pay `x` tokens of `mint` out of the token account at `k`: it is theirs, not frozen, holds
enough, and they are not its delegate as well. -/
def CanPay (env : Env) (w : World) (k mint u : Pubkey) (x : Nat) : Prop :=
  (w k).owner = env.tokenProgramId ∧ ∃ t, tokenAt w k = some t ∧ t.mint = mint ∧ t.owner = u ∧
    t.delegate ≠ some u ∧ t.frozen = false ∧ x ≤ t.amount.toNat

/-- The token account at `k` can take `x` more tokens of `mint`. -/
def CanReceive (env : Env) (w : World) (k mint : Pubkey) (x : Nat) : Prop :=
  (w k).owner = env.tokenProgramId ∧ ∃ t, tokenAt w k = some t ∧ t.mint = mint ∧
    t.frozen = false ∧ t.amount.toNat + x < 2 ^ 64

/-- The account at `k` is a token account that is not frozen. -/
def Thawed (w : World) (k : Pubkey) : Prop := ∃ t, tokenAt w k = some t ∧ t.frozen = false

/-- The vault that tokens go into and the one they come out of, by direction of trade. -/
def vaultIn (s : SwapV1) : TradeDirection → Pubkey
  | .AtoB => s.token_a
  | .BtoA => s.token_b
def vaultOut (s : SwapV1) : TradeDirection → Pubkey
  | .AtoB => s.token_b
  | .BtoA => s.token_a

/-- Their mints. -/
def mintIn (s : SwapV1) : TradeDirection → Pubkey
  | .AtoB => s.token_a_mint
  | .BtoA => s.token_b_mint
def mintOut (s : SwapV1) : TradeDirection → Pubkey
  | .AtoB => s.token_b_mint
  | .BtoA => s.token_a_mint

/-- Balances of token A and token B after a swap. -/
def afterA (r : SwapResult) : TradeDirection → Nat
  | .AtoB => r.new_swap_source_amount
  | .BtoA => r.new_swap_destination_amount
def afterB (r : SwapResult) : TradeDirection → Nat
  | .AtoB => r.new_swap_destination_amount
  | .BtoA => r.new_swap_source_amount

/-- Parameters and starting amounts (`a` token A, `b` token B) a pool may be created with. -/
def Startable (c : Curve) (a b : UInt64) : Prop :=
  match c with
  | .constantPrice p => p ≠ 0 ∧ a ≠ 0
  | .linear l => 0 < l.slope_numerator ∧ 0 < l.slope_denominator ∧
      0 < l.initial_token_a_price_denominator ∧ (1 : ℚ) / 10 ^ 18 ≤ slope l ∧ a = 0 ∧ b ≠ 0
  | _ => False

/-- Every fee is 0/0 or a proper fraction. -/
def ProperFees (f : Fees) : Prop :=
  ∀ k : FeeKind, (k.num f = 0 ∧ k.den f = 0) ∨ k.num f < k.den f

/-- The compile-time constraints, if any, are met. -/
def Allowed (env : Env) (f : Fees) (c : Curve) (feeOwner : Pubkey) : Prop :=
  ∀ sc, env.constraints = some sc → sc.ownerKey = some feeOwner ∧
    c.curveType ∈ sc.valid_curve_types ∧
    (∀ k : FeeKind, k.den f = k.den sc.fees ∧ k.num sc.fees ≤ k.num f) ∧
    FeeKind.host.num f = FeeKind.host.num sc.fees

end Spec
end Verif
