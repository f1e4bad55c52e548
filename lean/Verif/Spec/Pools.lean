import Verif.Model.Curve
import Mathlib.Logic.Relation

/-
Specification vocabulary for fees and value-based pools, independent of the curve code's helpers.
-/

namespace Verif
namespace Spec

/-- The four fee kinds of a schedule. -/
inductive FeeKind where
  | trade | ownerTrade | ownerWithdraw | host

/-- Numerator of a fee. -/
def FeeKind.num (f : Fees) : FeeKind → Nat
  | .trade => f.trade_fee_numerator.toNat
  | .ownerTrade => f.owner_trade_fee_numerator.toNat
  | .ownerWithdraw => f.owner_withdraw_fee_numerator.toNat
  | .host => f.host_fee_numerator.toNat

/-- Denominator of a fee. -/
def FeeKind.den (f : Fees) : FeeKind → Nat
  | .trade => f.trade_fee_denominator.toNat
  | .ownerTrade => f.owner_trade_fee_denominator.toNat
  | .ownerWithdraw => f.owner_withdraw_fee_denominator.toNat
  | .host => f.host_fee_denominator.toNat

/-- The program's computation of a fee. -/
def FeeKind.charge (f : Fees) (x : Nat) : FeeKind → Res Nat
  | .trade => f.tradingFee x
  | .ownerTrade => f.ownerTradingFee x
  | .ownerWithdraw => f.ownerWithdrawFee x
  | .host => f.hostFee x

/-- Value of balances `A`, `B` in units of token A when one token B is worth `p` token A. -/
def worth (p A B : Nat) : Nat := A + p * B

/-- Value of pool balances named by trade direction: the traded-in side comes first. -/
def worthDir (p : Nat) (dir : TradeDirection) (source dest : Nat) : Nat :=
  match dir with
  | .AtoB => worth p source dest
  | .BtoA => worth p dest source

/-- Value of `x` units of the traded-in token. -/
def worthOf (p : Nat) (dir : TradeDirection) (x : Nat) : Nat :=
  match dir with
  | .AtoB => x
  | .BtoA => p * x

/-- "Value per pool token does not fall": `(V, S)` before, `(V', S')` after. -/
def NoDilution (V S V' S' : Nat) : Prop := V * S' ≤ V' * S

instance (V S V' S' : Nat) : Decidable (NoDilution V S V' S') := by
  unfold NoDilution; infer_instance

/-- Balances of a pool: token A, token B, pool tokens outstanding. -/
structure Pool where
  A : Nat
  B : Nat
  S : Nat
  deriving DecidableEq

/-- Add to the traded-in side, remove from the other. -/
def Pool.trade (q : Pool) (dir : TradeDirection) (x y m : Nat) : Pool :=
  match dir with
  | .AtoB => ⟨q.A + x, q.B - y, q.S + m⟩
  | .BtoA => ⟨q.A - y, q.B + x, q.S + m⟩

/-- The balance of the traded-in side. -/
def Pool.src (q : Pool) (dir : TradeDirection) : Nat :=
  match dir with | .AtoB => q.A | .BtoA => q.B

/-- The balance of the paid-out side. -/
def Pool.dst (q : Pool) (dir : TradeDirection) : Nat :=
  match dir with | .AtoB => q.B | .BtoA => q.A

/-- One operation on a constant-price pool with fee schedule `f`, on balances.  The amounts are
those the curve calculations return; swaps mint the owner fee in pool tokens on the new balances;
two-sided withdrawals may pay less than computed (the processor caps them at the balance);
`donate` is anybody sending tokens to the vaults. -/
inductive CpStep (e : SplEnv) (p : UInt64) (f : Fees) : Pool → Pool → Prop
  | swap (q : Pool) (dir : TradeDirection) (s m : Nat) (r : SwapResult)
      (hr : (Curve.constantPrice p).swap e s (q.src dir) (q.dst dir) dir f = .ok r)
      (hm : (Curve.constantPrice p).withdrawSingle e r.owner_fee
        (q.trade dir r.source_amount_swapped r.destination_amount_swapped 0).A
        (q.trade dir r.source_amount_swapped r.destination_amount_swapped 0).B q.S dir f = .ok m) :
      CpStep e p f q (q.trade dir r.source_amount_swapped r.destination_amount_swapped m)
  | withdrawAll (q : Pool) (pt a b : Nat) (r : TradingTokenResult)
      (hr : (Curve.constantPrice p).poolTokensToTradingTokens e pt q.S q.A q.B .Floor = .ok r)
      (ha : a ≤ r.token_a_amount) (hb : b ≤ r.token_b_amount) (hA : a ≤ q.A) (hB : b ≤ q.B)
      (hS : pt ≤ q.S) : CpStep e p f q ⟨q.A - a, q.B - b, q.S - pt⟩
  | depositSingle (q : Pool) (dir : TradeDirection) (s m : Nat)
      (hm : (Curve.constantPrice p).depositSingle e s q.A q.B q.S dir f = .ok m) :
      CpStep e p f q (q.trade dir s 0 m)
  | donate (q : Pool) (u v : Nat) : CpStep e p f q ⟨q.A + u, q.B + v, q.S⟩

/-- Any finite sequence of constant-price operations. -/
def CpHistory (e : SplEnv) (p : UInt64) (f : Fees) : Pool → Pool → Prop :=
  Relation.ReflTransGen (CpStep e p f)

/-- One swap of any curve on balances (A, B), fees included. -/
inductive SwapStep (e : SplEnv) (c : Curve) (f : Fees) : Nat × Nat → Nat × Nat → Prop
  | aToB (A B s : Nat) (r : SwapResult) (h : c.swap e s A B .AtoB f = .ok r) :
      SwapStep e c f (A, B) (r.new_swap_source_amount, r.new_swap_destination_amount)
  | bToA (A B s : Nat) (r : SwapResult) (h : c.swap e s B A .BtoA f = .ok r) :
      SwapStep e c f (A, B) (r.new_swap_destination_amount, r.new_swap_source_amount)

/-- Any finite sequence of swaps. -/
def SwapHistory (e : SplEnv) (c : Curve) (f : Fees) : Nat × Nat → Nat × Nat → Prop :=
  Relation.ReflTransGen (SwapStep e c f)

end Spec
end Verif
