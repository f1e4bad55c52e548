import Verif.Spec.Linear
import Verif.Spec.Claim

/-
Specification vocabulary for C74: sequences of trades with a linear pool, counted.
-/

namespace Verif
namespace Spec

/-- From `x` to `y` no vault is emptied. -/
def Leaves (x y : Nat × Nat) : Prop := (x.1 ≠ 0 → y.1 ≠ 0) ∧ (x.2 ≠ 0 → y.2 ≠ 0)

/-- `n` trades of anybody with a pool that holds `x` token A and B at first, none of them emptying a
vault, with tokens sent to the vaults in between. -/
inductive Trades (c : LinearPriceCurve) (x : Nat × Nat) : Nat → Nat × Nat → Prop
  | start : Trades c x 0 x
  | gift {n A B : Nat} (u w : Nat) : Trades c x n (A, B) → A + u < 2 ^ 64 → B + w < 2 ^ 64 →
      Trades c x n (A + u, B + w)
  | trade {n : Nat} {y z : Nat × Nat} : Trades c x n y → PoolStep c y z → Leaves y z →
      Trades c x (n + 1) z

/-- The same with sales that empty vault A, but not purchases that empty vault B. -/
inductive TradesExits (c : LinearPriceCurve) (x : Nat × Nat) : Nat → Nat × Nat → Prop
  | start : TradesExits c x 0 x
  | gift {n A B : Nat} (u w : Nat) : TradesExits c x n (A, B) → A + u < 2 ^ 64 → B + w < 2 ^ 64 →
      TradesExits c x n (A + u, B + w)
  | trade {n : Nat} {y z : Nat × Nat} : TradesExits c x n y → PoolStep c y z →
      (y.2 ≠ 0 → z.2 ≠ 0) → TradesExits c x (n + 1) z

/-- What a pool holds. -/
def vaults (w : World) (s : SwapV1) : Nat × Nat := ((bal w s.token_a).toNat, (bal w s.token_b).toNat)

/-- Steps of the chain, `n` of them instructions of this program on the pool `s` at `k`, none of which
empties a vault. -/
inductive Meanwhile (env : Env) (K : Pubkey → Prop) (k : Pubkey) (s : SwapV1) (w : World) :
    Nat → World → Prop
  | start : Meanwhile env K k s w 0 w
  | other {n : Nat} {u u' : World} : Meanwhile env K k s w n u → EnvStep env K u u' →
      Meanwhile env K k s w n u'
  | elsewhere {n : Nat} {u u' : World} (signers : List Pubkey) (i : Instr) :
      Meanwhile env K k s w n u → K i.pool → (∀ x ∈ signers, ¬ IsPda env K x) → i.pool ≠ k →
      exec env signers i u = .ok u' → Meanwhile env K k s w n u'
  | here {n : Nat} {u u' : World} (signers : List Pubkey) (i : Instr) :
      Meanwhile env K k s w n u → (∀ x ∈ signers, ¬ IsPda env K x) → i.pool = k →
      exec env signers i u = .ok u' → Leaves (vaults u s) (vaults u' s) →
      Meanwhile env K k s w (n + 1) u'

end Spec
end Verif
