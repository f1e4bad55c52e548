import Verif.Spec.Basket

/-
The vocabulary of C106: histories of constant-product and offset pools that charge an owner fee on trades.
-/

namespace Verif
namespace Spec

/-- A square root, on numbers with twelve decimals, that is less than one unit below the true one (C105:
the library's is one). -/
def ReachRoot (e : SplEnv) : Prop := ∀ w r, e.sqrt w = .ok r → w * 1000000000000 < (r + 1) * (r + 1)

/-- Balances and supply as token accounts and mints hold them. -/
def Pool.Small (q : Pool) : Prop := q.A < 2 ^ 64 ∧ q.B < 2 ^ 64 ∧ q.S < 2 ^ 64

instance (q : Pool) : Decidable q.Small := by unfold Pool.Small; infer_instance

/-- One if pool tokens were issued. -/
def issueCount (q q' : Pool) : Nat := if q.S < q'.S then 1 else 0

/-- Any finite sequence of operations (no exact one-sided withdrawals), `n` of which issued pool tokens,
while somebody held `h` pool tokens. -/
inductive HeldHistory (h : Nat) (e : SplEnv) (c : Curve) (f : Fees) : Nat → Pool → Pool → Prop
  | refl (q : Pool) : HeldHistory h e c f 0 q q
  | tail {n k : Nat} {x y z : Pool} (hh : HeldHistory h e c f n x y) (hs : RootStep false e c f k y z)
      (hy : y.Small) (hz : z.Small) (hS : h ≤ z.S) : HeldHistory h e c f (n + issueCount y z) x z

/-- What `h` pool tokens are part of, by the geometric mean of the balances (token B's with the offset
`o`), falls `n` times by no more than the part of one pool token and one part in 10¹²:
`√(A·B)/S · (1 - 1/h - 10⁻¹²)ⁿ ≤ √(A'·B')/S'`, squared. -/
def KeepsBut (o h n : Nat) (q q' : Pool) : Prop :=
  q.A * (q.B + o) * q'.S ^ 2 * ((1000000000000 * h - 1000000000000 - h) ^ n) ^ 2 ≤
    q'.A * (q'.B + o) * q.S ^ 2 * ((1000000000000 * h) ^ n) ^ 2

instance (o h n : Nat) (q q' : Pool) : Decidable (KeepsBut o h n q q') := by unfold KeepsBut; infer_instance

end Spec
end Verif
