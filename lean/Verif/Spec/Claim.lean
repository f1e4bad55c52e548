import Verif.Spec.Chain
import Verif.Spec.Pools
import Mathlib.Algebra.Order.Field.Rat

/-
What a holder of pool tokens of a constant-price pool can call their own.
-/

namespace Verif
namespace Spec

/-- Everything in the vaults of pool `s`, in units of token A at price `p` for a token B. -/
def vaultsWorth (w : World) (s : SwapV1) (p : Nat) : Nat :=
  worth p (bal w s.token_a).toNat (bal w s.token_b).toNat

/-- Pool tokens outstanding. -/
def shares (w : World) (s : SwapV1) : Nat := (supply w s.pool_mint).toNat

/-- The part of the vaults that belongs to `h` pool tokens. -/
def claim (w : World) (s : SwapV1) (p h : Nat) : ℚ := h * vaultsWorth w s p / shares w s

/-- Steps of the chain during which at least `h` pool tokens of pool `s` exist (as is the case while
somebody holds `h` of them), `n` of them being instructions of this program on the pool at `k`. -/
inductive While (env : Env) (K : Pubkey → Prop) (k : Pubkey) (s : SwapV1) (h : Nat) (w : World) :
    Nat → World → Prop
  | start : While env K k s h w 0 w
  | other {n : Nat} {u u' : World} : While env K k s h w n u → EnvStep env K u u' →
      h ≤ shares u' s → While env K k s h w n u'
  | instr {n : Nat} {u u' : World} (signers : List Pubkey) (i : Instr) :
      While env K k s h w n u → K i.pool → (∀ x ∈ signers, ¬ IsPda env K x) →
      exec env signers i u = .ok u' → h ≤ shares u' s →
      While env K k s h w (if i.pool = k then n + 1 else n) u'

end Spec
end Verif
