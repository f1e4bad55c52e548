import Verif.Spec.Basket

/-
The vocabulary of C104 with exact one-sided withdrawals.
-/

namespace Verif
namespace Spec

/-- One if pool tokens were given back. -/
def burnCount (q q' : Pool) : Nat := if q'.S < q.S then 1 else 0

/-- Any finite sequence of operations, exact one-sided withdrawals among them, each of which leaves at least
the `t`-th part of the pool tokens.  `n` counts the one-sided deposits and all withdrawals. -/
inductive DrawHistory (t : Nat) (e : SplEnv) (c : Curve) (f : Fees) : Nat → Pool → Pool → Prop
  | refl (q : Pool) : DrawHistory t e c f 0 q q
  | tail {n k : Nat} {x y z : Pool} (hh : DrawHistory t e c f n x y) (hs : RootStep true e c f k y z)
      (hA : y.A < 2 ^ 64) (hB : y.B < 2 ^ 64) (hS : y.S < 2 ^ 64) (ht : y.S ≤ t * z.S) :
      DrawHistory t e c f (n + (k + burnCount y z)) x z

/-- The geometric mean of the balances (token B's with the offset `o`) per pool token falls `n` times by no
more than `2t²` parts in 10¹² of its square. -/
def KeepsDrawn (t o n : Nat) (q q' : Pool) : Prop :=
  q.A * (q.B + o) * q'.S ^ 2 * (1000000000000 - 2 * t ^ 2) ^ n ≤
    q'.A * (q'.B + o) * q.S ^ 2 * 1000000000000 ^ n

instance (t o n : Nat) (q q' : Pool) : Decidable (KeepsDrawn t o n q q') := by
  unfold KeepsDrawn; infer_instance

end Spec

end Verif
