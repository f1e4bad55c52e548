import Verif.Spec.Pools

/-
The vocabulary of C104: histories of constant-product and offset pools with deposits and withdrawals.
-/

namespace Verif
namespace Spec

/-- What the curves of the constant-product family add to the balance of token B. -/
def productOffset : Curve → Option Nat
  | .constantProduct => some 0
  | .offset o => some o.toNat
  | _ => none

/-- Take `x` from the side named by the direction, for `m` pool tokens. -/
def Pool.drawn (q : Pool) (dir : TradeDirection) (x m : Nat) : Pool :=
  match dir with
  | .AtoB => ⟨q.A - x, q.B, q.S - m⟩
  | .BtoA => ⟨q.A, q.B - x, q.S - m⟩

/-- One operation on a pool with fee schedule `f`, on balances.  The amounts are those the curve
calculations return; swaps mint the owner fee in pool tokens on the new balances; two-sided deposits are
offered only where the curve allows them, and must charge something of each token; two-sided withdrawals
may pay less than computed (the processor caps them at the balance); anybody may send tokens to the
vaults.  `single` tells whether exact one-sided withdrawals are among the operations; the number counts the
one-sided deposits. -/
inductive RootStep (single : Bool) (e : SplEnv) (c : Curve) (f : Fees) : Nat → Pool → Pool → Prop
  | swap (q : Pool) (dir : TradeDirection) (s m : Nat) (r : SwapResult)
      (hr : c.swap e s (q.src dir) (q.dst dir) dir f = .ok r)
      (hm : c.withdrawSingle e r.owner_fee
        (q.trade dir r.source_amount_swapped r.destination_amount_swapped 0).A
        (q.trade dir r.source_amount_swapped r.destination_amount_swapped 0).B q.S dir f = .ok m) :
      RootStep single e c f 0 q (q.trade dir r.source_amount_swapped r.destination_amount_swapped m)
  | depositAll (q : Pool) (pt : Nat) (r : TradingTokenResult) (hd : c.allowsDeposits = true)
      (hr : c.poolTokensToTradingTokens e pt q.S q.A q.B .Ceiling = .ok r)
      (ha : 0 < r.token_a_amount) (hb : 0 < r.token_b_amount) :
      RootStep single e c f 0 q ⟨q.A + r.token_a_amount, q.B + r.token_b_amount, q.S + pt⟩
  | withdrawAll (q : Pool) (pt a b : Nat) (r : TradingTokenResult)
      (hr : c.poolTokensToTradingTokens e pt q.S q.A q.B .Floor = .ok r)
      (ha : a ≤ r.token_a_amount) (hb : b ≤ r.token_b_amount) (hA : a ≤ q.A) (hB : b ≤ q.B)
      (hS : pt ≤ q.S) : RootStep single e c f 0 q ⟨q.A - a, q.B - b, q.S - pt⟩
  | depositSingle (q : Pool) (dir : TradeDirection) (s m : Nat) (hs : s < 2 ^ 64) (hA : q.A < 2 ^ 64)
      (hB : q.B < 2 ^ 64) (hS : q.S < 2 ^ 64)
      (hm : c.depositSingle e s q.A q.B q.S dir f = .ok m) : RootStep single e c f 1 q (q.trade dir s 0 m)
  | donate (q : Pool) (u v : Nat) : RootStep single e c f 0 q ⟨q.A + u, q.B + v, q.S⟩
  | withdrawSingle (q : Pool) (dir : TradeDirection) (s m : Nat) (hsg : single = true)
      (hm : c.withdrawSingle e s q.A q.B q.S dir f = .ok m) (hm0 : 0 < m) (hS : m ≤ q.S)
      (hs : s ≤ q.src dir) :
      RootStep single e c f 0 q (q.drawn dir s m)

/-- A square root, on numbers with twelve decimals, whose square exceeds its argument by no more than 10¹²
units of the 24th decimal (C105: the library's is one). -/
def NearRoot (e : SplEnv) : Prop := ∀ w r, e.sqrt w = .ok r → r * r ≤ w * 1000000000000 + 1000000000000

/-- Any finite sequence of operations, with `n` one-sided deposits among them. -/
inductive RootHistory (single : Bool) (e : SplEnv) (c : Curve) (f : Fees) : Nat → Pool → Pool → Prop
  | refl (q : Pool) : RootHistory single e c f 0 q q
  | tail {n k : Nat} {x y z : Pool} (h : RootHistory single e c f n x y) (hs : RootStep single e c f k y z) :
      RootHistory single e c f (n + k) x z

/-- The geometric mean of the balances (token B's with the offset `o`) per pool token does not fall, but
for `n` parts in 10¹² of its square. -/
def Keeps (o n : Nat) (q q' : Pool) : Prop :=
  q.A * (q.B + o) * q'.S ^ 2 * 1000000000000 ^ n ≤ q'.A * (q'.B + o) * q.S ^ 2 * 1000000000001 ^ n

instance (o n : Nat) (q q' : Pool) : Decidable (Keeps o n q q') := by unfold Keeps; infer_instance

end Spec
end Verif
